import Verif.Spec.DiscreteReplay
import Verif.Props.Discretizer
import Verif.Props.OverlapMachine
import Verif.Props.Metrics
/-
C189: expert rollouts with a discretised delta action space do not drift.

The expert action is recomputed at every step from the simulated pose towards the next logged pose, so the rounding to the grid
of actions made at one step is corrected at the next one: the distance to the log never exceeds half a bin, however long the
rollout is.
-/
namespace Waymax

open Real

section
variable {D M R K Q : Type} {n T : Nat} [NeZero T]

/-- If, from every current pose close to the logged one, the expert action carries object `i` close to its next logged pose,
then the whole expert rollout stays close to the log. `C` is any relation that holds between points of equal pose. -/
theorem expert_near {C : Pt ℝ → Pt ℝ → Prop} (hC : ∀ p q : Pt ℝ, p.x = q.x → p.y = q.y → p.yaw = q.yaw → C p q)
    {d : DynamicsModel ℝ D n} {cfg : EnvConfig} {metrics : SimState ℝ n T → Except Err M}
    {reward : SimState ℝ n T → (Fin n → Act D) → Except Err R}
    {mask : SimState ℝ n T → Fin n → Bool} {split : K → K × K} {params : Q}
    {zerosLike : (Fin n → Act D) → (Fin n → Act D)} {scen : SimState ℝ n T} {rng : K} {N : Nat}
    {out : List (RolloutEntry (SimState ℝ n T) (Fin n → Act D) (SimState ℝ n T) M R)}
    (h : rollout (baseEnv d cfg metrics reward) (expertActor d mask) split params zerosLike scen rng N = .ok out)
    (hw : 1 ≤ cfg.initSteps) (hfit : cfg.initSteps + N ≤ T) (i : Fin n)
    (hlv : ∀ t : Fin T, cfg.initSteps ≤ (t : Nat) + 1 → (scen.logTrajectory i t).valid = true)
    (htrack : ∀ (t t' : Fin T) (cur : Fin n → Pt ℝ), (t' : Nat) = t + 1 → cfg.initSteps ≤ (t' : Nat) →
      (cur i).valid = true → C (cur i) (scen.logTrajectory i t) → ∀ md (p : Pt ℝ),
      let u := d.computeUpdate
        (d.inverse (T := 2) (fun j s => if s.val = 0 then cur j else scen.logTrajectory j t') md ((0 : Fin 2) : Int)) cur i
      p.x = u.x → p.y = u.y → p.yaw = u.yaw → C p (scen.logTrajectory i t'))
    (k : Nat) (hk : k < out.length) (t : Fin T) (ht : (t : Int) ≤ out[k].state.timestep) :
    C (out[k].state.simTrajectory i t) (scen.logTrajectory i t) := by
  obtain ⟨hN, hlen, hreset, hstep, -, ⟨xs, -, hact⟩, -⟩ := C14_rollout_spec h
  have hact' : ∀ j (hj : j < N), out[j].action = inferExpertAction out[j].state d := fun j hj =>
    ((hact j hj).1).symm
  have key : ∀ j (hj : j ≤ N), out[j].state.logTrajectory = scen.logTrajectory ∧
      out[j].state.timestep = (cfg.initSteps : Int) - 1 + j ∧
      ∀ (t : Fin T), (t : Int) ≤ out[j].state.timestep →
        C (out[j].state.simTrajectory i t) (scen.logTrajectory i t) ∧
        (cfg.initSteps ≤ (t : Nat) + 1 → (out[j].state.simTrajectory i t).valid = true) := by
    intro j
    induction j with
    | zero =>
      intro _
      have hr := C01_reset_spec hreset
      refine ⟨hr.2.2.2.log, by simpa using hr.1, ?_⟩
      intro t ht
      have : t.val < cfg.initSteps := by rw [hr.1] at ht; omega
      rw [hr.2.1 i t this]
      exact ⟨hC _ _ rfl rfl rfl, fun h => hlv t h⟩
    | succ j ih =>
      intro hj
      obtain ⟨hlog, hts, ih⟩ := ih (by omega)
      have hst : step d cfg out[j].state out[j].action = .ok out[j + 1].state := hstep j (by omega)
      obtain ⟨m, hm, heq⟩ := step_ok hst
      rw [heq]
      refine ⟨hlog, by simp only [hts]; omega, ?_⟩
      intro t ht
      simp only at ht ⊢
      have h1 : ((⟨cfg.initSteps - 1 + j, by omega⟩ : Fin T) : Int) = out[j].state.timestep := by
        rw [hts]; simp only; omega
      have h2 : ((⟨cfg.initSteps + j, by omega⟩ : Fin T) : Int) = out[j].state.timestep + 1 := by
        rw [hts]; simp only; omega
      rw [forward_apply d _ _ _ m _ h1 h2]
      by_cases htt : t = ⟨cfg.initSteps + j, by omega⟩
      · rw [if_pos htt, hact' j (by omega)]
        obtain ⟨ihp, ihv⟩ := ih _ (le_of_eq h1)
        have ihv := ihv (by simp only; omega)
        have := htrack ⟨cfg.initSteps - 1 + j, by omega⟩ ⟨cfg.initSteps + j, by omega⟩
          (fun q => out[j].state.simTrajectory q ⟨cfg.initSteps - 1 + j, by omega⟩) (by simp only; omega) (by simp)
          ihv ihp out[j].state.objectMetadata
        have he : inferExpertAction out[j].state d = d.inverse (T := 2)
            (fun q s => if s.val = 0 then out[j].state.simTrajectory q ⟨cfg.initSteps - 1 + j, by omega⟩
              else scen.logTrajectory q ⟨cfg.initSteps + j, by omega⟩) out[j].state.objectMetadata ((0 : Fin 2) : Int) := by
          unfold inferExpertAction
          simp only [dynIndex_of_eq _ h1, dynIndex_of_eq _ h2, hlog]
          rfl
        rw [← he] at this
        have hv2 := hlv ⟨cfg.initSteps + j, by omega⟩ (by simp only; omega)
        rw [hlog, htt]
        refine ⟨?_, fun _ => ?_⟩
        · cases m i
          · exact hC _ _ rfl rfl rfl
          · exact this _ rfl rfl rfl
        · simp only [updatedPt, nextValid, ihv, hv2]
          cases m i <;> cases cfg.allowNewObjectsAfterWarmup <;> rfl
      · rw [if_neg htt]
        apply ih
        have : t.val ≠ cfg.initSteps + j := fun hh => htt (Fin.ext hh)
        omega
  exact ((key k (by omega)).2.2 t ht).1

end

/-- One coordinate: the displacement `z` towards the target is clipped to the bounds and then rounded to the grid. If the target
itself moved by at most the bound `b` from a point within half a bin of where the object is, half a bin is again the largest
possible error. `w` is the executed displacement. -/
theorem coordinate_error {b z w : ℝ} {N : ℕ} (hb : 0 < b) (hN : 1 ≤ N)
    (hgrid : ∀ i : ℤ, |clip z (-b) b - w| ≤ |clip z (-b) b - (-b + i * ((b - -b) / N))|)
    (hround : |clip z (-b) b - w| ≤ b / N) (hz : |z| ≤ b + b / N) : |z - w| ≤ b / N := by
  have hN' : (0 : ℝ) < N := by exact_mod_cast hN
  rcases le_total |z| b with h | h
  · rwa [clip_id_abs h] at hround
  · rcases le_total 0 z with h0 | h0
    · rw [abs_of_nonneg h0] at h hz
      have hc : clip z (-b) b = b := by unfold clip; rw [max_eq_left (by linarith), min_eq_right h]
      have := hgrid N
      rw [hc, show b - (-b + ((N : ℤ) : ℝ) * ((b - -b) / N)) = 0 by push_cast; field_simp; ring, abs_zero] at this
      have hw : w = b := by
        have := abs_eq_zero.1 (le_antisymm this (abs_nonneg _)); linarith
      rw [hw, abs_of_nonneg (by linarith)]; linarith
    · rw [abs_of_nonpos h0] at h hz
      have hc : clip z (-b) b = -b := by
        unfold clip; rw [max_eq_right (by linarith), min_eq_left (by linarith)]
      have := hgrid 0
      rw [hc, show -b - (-b + ((0 : ℤ) : ℝ) * ((b - -b) / N)) = 0 by push_cast; ring, abs_zero] at this
      have hw : w = -b := by
        have := abs_eq_zero.1 (le_antisymm this (abs_nonneg _)); linarith
      rw [hw, abs_of_nonpos (by linarith)]; linarith

theorem clip_range {z b : ℝ} (hb : 0 ≤ b) : |clip z (-b) b| ≤ b := by
  unfold clip
  rw [abs_le]
  exact ⟨le_min (le_max_right _ _) (by linarith), min_le_right _ _⟩

/-- The executed action of the discretised expert: each coordinate is a grid value within half a bin of the coordinate of the
undiscretised action, and the nearest one. -/
theorem discrete_action {n : Nat} (d : DynamicsModel ℝ Delta3 n) {P : DeltaParams} {bx by' byaw : ℕ}
    (h1 : 0 < P.maxDx) (h2 : 0 < P.maxDy) (h3 : π ≤ P.maxDyaw) (h4 : 1 ≤ bx) (h5 : 1 ≤ by') (h6 : 1 ≤ byaw)
    {T : Nat} [NeZero T] (traj : Traj ℝ n T) (md : Fin n → ObjMeta) (t : Int) (i : Fin n)
    (hx : |(d.inverse traj md t i).data.dx| ≤ P.maxDx) (hy : |(d.inverse traj md t i).data.dy| ≤ P.maxDy)
    (hyaw : |(d.inverse traj md t i).data.dyaw| ≤ π) :
    let w := deltaCodec.ofRow (makeContinuous (deltaDims P bx by' byaw)
      ((discreteWrapper d deltaCodec (deltaDims P bx by' byaw)).inverse traj md t i).data)
    let a := (d.inverse traj md t i).data
    ((∀ k : ℤ, |a.dx - w.dx| ≤ |a.dx - (-P.maxDx + k * ((P.maxDx - -P.maxDx) / bx))|) ∧ |a.dx - w.dx| ≤ P.maxDx / bx) ∧
    ((∀ k : ℤ, |a.dy - w.dy| ≤ |a.dy - (-P.maxDy + k * ((P.maxDy - -P.maxDy) / by'))|) ∧ |a.dy - w.dy| ≤ P.maxDy / by') ∧
    |a.dyaw - w.dyaw| ≤ P.maxDyaw / byaw := by
  have hpi := pi_pos
  have hd := deltaDims_proper h1 h2 (by linarith : 0 < P.maxDyaw) h4 h5 h6
  obtain ⟨-, -, hk⟩ := C34_inverse_in_spec d deltaCodec (deltaDims P bx by' byaw) (fun a => rfl) traj md t i
  generalize hkk : ((discreteWrapper d deltaCodec (deltaDims P bx by' byaw)).inverse traj md t i).data = k at hk ⊢
  generalize d.inverse traj md t i = act at hx hy hyaw hk ⊢
  obtain ⟨wx, hwx, gx, cx, -⟩ := C33_value_round_trip hd hk 0 _ _ rfl rfl
  obtain ⟨wy, hwy, gy, cy, -⟩ := C33_value_round_trip hd hk 1 _ _ rfl rfl
  obtain ⟨wz, hwz, -, -, cz⟩ := C33_value_round_trip hd hk 2 _ _ rfl rfl
  have ex : (deltaCodec.ofRow (makeContinuous (deltaDims P bx by' byaw) k)).dx = wx := by
    change (makeContinuous (deltaDims P bx by' byaw) k).getD 0 0 = _
    rw [List.getD_eq_getElem?_getD, hwx]; rfl
  have ey : (deltaCodec.ofRow (makeContinuous (deltaDims P bx by' byaw) k)).dy = wy := by
    change (makeContinuous (deltaDims P bx by' byaw) k).getD 1 0 = _
    rw [List.getD_eq_getElem?_getD, hwy]; rfl
  have ez : (deltaCodec.ofRow (makeContinuous (deltaDims P bx by' byaw) k)).dyaw = wz := by
    change (makeContinuous (deltaDims P bx by' byaw) k).getD 2 0 = _
    rw [List.getD_eq_getElem?_getD, hwz]; rfl
  have half : ∀ (b : ℝ) (N : ℕ), (b - -b) / N / 2 = b / N := fun b N => by ring
  have kx : BinDim.clamp ⟨-P.maxDx, P.maxDx, bx⟩ act.data.dx = act.data.dx := clip_id_abs hx
  have ky : BinDim.clamp ⟨-P.maxDy, P.maxDy, by'⟩ act.data.dy = act.data.dy := clip_id_abs hy
  rw [kx] at gx cx
  rw [ky] at gy cy
  rw [abs_le] at hyaw
  have cz' := cz (by linarith [hyaw.1]) (by linarith [hyaw.2])
  simp only [half] at cx cy cz'
  intro w a
  refine ⟨⟨?_, ?_⟩, ⟨?_, ?_⟩, ?_⟩
  · intro j; change |a.dx - (deltaCodec.ofRow _).dx| ≤ _; rw [ex]; exact gx j
  · change |a.dx - (deltaCodec.ofRow _).dx| ≤ _; rw [ex]; exact cx
  · intro j; change |a.dy - (deltaCodec.ofRow _).dy| ≤ _; rw [ey]; exact gy j
  · change |a.dy - (deltaCodec.ofRow _).dy| ≤ _; rw [ey]; exact cy
  · change |a.dyaw - (deltaCodec.ofRow _).dyaw| ≤ _; rw [ez]; exact cz'

theorem HeadingWithin.of_wrap {e a b w : ℝ} (h : |wrapYaws (b - a) - w| ≤ e) : HeadingWithin e (a + w) b := by
  obtain ⟨k, hk⟩ := wrap_agrees (b - a)
  refine ⟨k, ?_⟩
  rw [abs_sub_comm] at h
  rw [show a + w - b - k * (2 * π) = w - wrapYaws (b - a) by rw [hk]; ring]
  exact h

section
variable {M R K Q : Type} {n T : Nat} [NeZero T]

/-- C189: with the discretised `DeltaGlobal`, an expert rollout keeps an object within half a bin of its log (in x, in y and
in heading) at every step, whatever set of objects is controlled and however long the rollout is, provided its log is valid and
moves by at most the bounds per simulated step. -/
theorem C189_discrete_expert_global {P : DeltaParams} {bx by' byaw : ℕ} {cfg : EnvConfig}
    (h1 : 0 < P.maxDx) (h2 : 0 < P.maxDy) (h3 : π ≤ P.maxDyaw) (h4 : 1 ≤ bx) (h5 : 1 ≤ by') (h6 : 1 ≤ byaw)
    {metrics : SimState ℝ n T → Except Err M} {reward : SimState ℝ n T → (Fin n → Act ℤ) → Except Err R}
    {mask : SimState ℝ n T → Fin n → Bool} {split : K → K × K} {params : Q}
    {zerosLike : (Fin n → Act ℤ) → (Fin n → Act ℤ)} {scen : SimState ℝ n T} {rng : K} {N : Nat}
    {out : List (RolloutEntry (SimState ℝ n T) (Fin n → Act ℤ) (SimState ℝ n T) M R)}
    (h : rollout (baseEnv (discreteWrapper (deltaGlobal P) deltaCodec (deltaDims P bx by' byaw)) cfg metrics reward)
      (expertActor (discreteWrapper (deltaGlobal P) deltaCodec (deltaDims P bx by' byaw)) mask) split params zerosLike
      scen rng N = .ok out)
    (hw : 1 ≤ cfg.initSteps) (hfit : cfg.initSteps + N ≤ T) (i : Fin n)
    (hlv : ∀ t : Fin T, cfg.initSteps ≤ (t : Nat) + 1 → (scen.logTrajectory i t).valid = true)
    (hlog : ∀ t t' : Fin T, (t' : Nat) = t + 1 → cfg.initSteps ≤ (t' : Nat) →
      |(scen.logTrajectory i t').x - (scen.logTrajectory i t).x| ≤ P.maxDx ∧
      |(scen.logTrajectory i t').y - (scen.logTrajectory i t).y| ≤ P.maxDy)
    (k : Nat) (hk : k < out.length) (t : Fin T) (ht : (t : Int) ≤ out[k].state.timestep) :
    NearLog (P.maxDx / bx) (P.maxDy / by') (P.maxDyaw / byaw) (out[k].state.simTrajectory i t) (scen.logTrajectory i t) := by
  have hpi := pi_pos
  refine expert_near (C := NearLog (P.maxDx / bx) (P.maxDy / by') (P.maxDyaw / byaw)) ?_ h hw hfit i hlv ?_ k hk t ht
  · intro p q ex ey ez
    refine ⟨?_, ?_, 0, ?_⟩
    · rw [ex, sub_self, abs_zero]; positivity
    · rw [ey, sub_self, abs_zero]; positivity
    · rw [ez]; simp only [sub_self, Int.cast_zero, zero_mul, abs_zero]
      exact div_nonneg (by linarith) (by positivity)
  · intro t t' cur htt hi hv hnear md p u hpx hpy hpz
    obtain ⟨hdx, hdy⟩ := hlog t t' htt hi
    obtain ⟨nx, ny, -⟩ := hnear
    have hv' := hlv t' (by omega)
    set traj : Traj ℝ n 2 := fun j s => if s.val = 0 then cur j else scen.logTrajectory j t' with htraj
    have hinv : (deltaGlobal P).inverse traj md ((0 : Fin 2) : Int) i =
        { data := { dx := clip ((scen.logTrajectory i t').x - (cur i).x) (-P.maxDx) P.maxDx
                    dy := clip ((scen.logTrajectory i t').y - (cur i).y) (-P.maxDy) P.maxDy
                    dyaw := wrapYaws ((scen.logTrajectory i t').yaw - (cur i).yaw) }, valid := true } := by
      have hwin : window2 (traj i) ((0 : Fin 2) : Int) = (traj i 0, traj i 1) := window2_eq (t := 0) (t' := 1) _ rfl
      have e0 : traj i 0 = cur i := rfl
      have e1 : traj i 1 = scen.logTrajectory i t' := rfl
      change deltaGlobalInverse P (traj i) _ = _
      unfold deltaGlobalInverse
      rw [hwin, e0, e1]
      simp only [hv, hv', Bool.and_self, if_true, deltaClip]
    have hr := C21_wrap_range ((scen.logTrajectory i t').yaw - (cur i).yaw)
    have hact := discrete_action (deltaGlobal P) h1 h2 h3 h4 h5 h6 traj md ((0 : Fin 2) : Int) i
      (by rw [hinv]; exact clip_range h1.le) (by rw [hinv]; exact clip_range h2.le)
      (by rw [hinv]; exact abs_le.2 ⟨hr.1, hr.2.le⟩)
    dsimp only at hact
    rw [hinv] at hact
    dsimp only at hact
    obtain ⟨⟨gx, cx⟩, ⟨gy, cy⟩, cz⟩ := hact
    set w := deltaCodec.ofRow (makeContinuous (deltaDims P bx by' byaw)
      ((discreteWrapper (deltaGlobal P) deltaCodec (deltaDims P bx by' byaw)).inverse traj md ((0 : Fin 2) : Int) i).data)
      with hwdef
    have ux : u.x = (cur i).x + w.dx := rfl
    have uy : u.y = (cur i).y + w.dy := rfl
    have uz : u.yaw = (cur i).yaw + w.dyaw := rfl
    have zx : |(scen.logTrajectory i t').x - (cur i).x| ≤ P.maxDx + P.maxDx / bx := by
      rw [abs_le] at *; constructor <;> linarith [hdx.1, hdx.2, nx.1, nx.2]
    have zy : |(scen.logTrajectory i t').y - (cur i).y| ≤ P.maxDy + P.maxDy / by' := by
      rw [abs_le] at *; constructor <;> linarith [hdy.1, hdy.2, ny.1, ny.2]
    have rx := coordinate_error h1 h4 gx cx zx
    have ry := coordinate_error h2 h5 gy cy zy
    refine ⟨?_, ?_, ?_⟩
    · rw [hpx, ux, abs_sub_comm, show (scen.logTrajectory i t').x - ((cur i).x + w.dx) =
        (scen.logTrajectory i t').x - (cur i).x - w.dx by ring]
      exact rx
    · rw [hpy, uy, abs_sub_comm, show (scen.logTrajectory i t').y - ((cur i).y + w.dy) =
        (scen.logTrajectory i t').y - (cur i).y - w.dy by ring]
      exact ry
    · rw [hpz, uz]
      exact HeadingWithin.of_wrap cz

/-- C189: with the discretised `DeltaLocal` the grid is aligned with the heading of the object, so the bound is on the distance:
half the diagonal of a bin. The log may move by at most the bounds minus that distance per simulated step. -/
theorem C189_discrete_expert_local {P : DeltaParams} {bx by' byaw : ℕ} {cfg : EnvConfig}
    (h1 : 0 < P.maxDx) (h2 : 0 < P.maxDy) (h3 : π ≤ P.maxDyaw) (h4 : 1 ≤ bx) (h5 : 1 ≤ by') (h6 : 1 ≤ byaw)
    {metrics : SimState ℝ n T → Except Err M} {reward : SimState ℝ n T → (Fin n → Act ℤ) → Except Err R}
    {mask : SimState ℝ n T → Fin n → Bool} {split : K → K × K} {params : Q}
    {zerosLike : (Fin n → Act ℤ) → (Fin n → Act ℤ)} {scen : SimState ℝ n T} {rng : K} {N : Nat}
    {out : List (RolloutEntry (SimState ℝ n T) (Fin n → Act ℤ) (SimState ℝ n T) M R)}
    (h : rollout (baseEnv (discreteWrapper (deltaLocal P) deltaCodec (deltaDims P bx by' byaw)) cfg metrics reward)
      (expertActor (discreteWrapper (deltaLocal P) deltaCodec (deltaDims P bx by' byaw)) mask) split params zerosLike
      scen rng N = .ok out)
    (hw : 1 ≤ cfg.initSteps) (hfit : cfg.initSteps + N ≤ T) (i : Fin n)
    (hlv : ∀ t : Fin T, cfg.initSteps ≤ (t : Nat) + 1 → (scen.logTrajectory i t).valid = true)
    (hlog : ∀ t t' : Fin T, (t' : Nat) = t + 1 → cfg.initSteps ≤ (t' : Nat) →
      dist2 ((scen.logTrajectory i t').x, (scen.logTrajectory i t').y)
        ((scen.logTrajectory i t).x, (scen.logTrajectory i t).y) + √((P.maxDx / bx) ^ 2 + (P.maxDy / by') ^ 2) ≤
          min P.maxDx P.maxDy)
    (k : Nat) (hk : k < out.length) (t : Fin T) (ht : (t : Int) ≤ out[k].state.timestep) :
    NearLogDist √((P.maxDx / bx) ^ 2 + (P.maxDy / by') ^ 2) (P.maxDyaw / byaw) (out[k].state.simTrajectory i t)
      (scen.logTrajectory i t) := by
  have hpi := pi_pos
  refine expert_near (C := NearLogDist √((P.maxDx / bx) ^ 2 + (P.maxDy / by') ^ 2) (P.maxDyaw / byaw)) ?_ h hw hfit i hlv ?_
    k hk t ht
  · intro p q ex ey ez
    refine ⟨?_, 0, ?_⟩
    · rw [ex, ey]; simp only [dist2, sub_self]; norm_num
    · rw [ez]; simp only [sub_self, Int.cast_zero, zero_mul, abs_zero]
      exact div_nonneg (by linarith) (by positivity)
  · intro t t' cur htt hi hv hnear md p u hpx hpy hpz
    have hd := hlog t t' htt hi
    obtain ⟨nd, -⟩ := hnear
    have hv' := hlv t' (by omega)
    have hlen : √(((scen.logTrajectory i t').x - (cur i).x) ^ 2 + ((scen.logTrajectory i t').y - (cur i).y) ^ 2) ≤
        min P.maxDx P.maxDy := by
      refine le_trans ?_ hd
      rw [dist2_comm] at nd
      exact (dist2_triangle ((scen.logTrajectory i t').x, (scen.logTrajectory i t').y)
        ((scen.logTrajectory i t).x, (scen.logTrajectory i t).y) ((cur i).x, (cur i).y)).trans (by linarith)
    set q := scen.logTrajectory i t' with hq
    have hm : 0 < min P.maxDx P.maxDy := lt_min h1 h2
    have hsq : (q.x - (cur i).x) ^ 2 + (q.y - (cur i).y) ^ 2 ≤ (min P.maxDx P.maxDy) ^ 2 := (sqrt_le_left hm.le).1 hlen
    obtain ⟨ax, ay⟩ := abs_le_of_normSq hm.le hsq
    have hback := rotate_back (cur i).yaw (q.x - (cur i).x, q.y - (cur i).y)
    have hrn := rotate_normSq (-(cur i).yaw) (q.x - (cur i).x, q.y - (cur i).y)
    obtain ⟨a, b, hab⟩ : ∃ a b, rotatePoints (rotationMatrix2d (-(cur i).yaw)) (q.x - (cur i).x, q.y - (cur i).y) = (a, b) :=
      ⟨_, _, rfl⟩
    rw [hab] at hback hrn
    obtain ⟨ha, hb⟩ := abs_le_of_normSq hm.le (hrn.le.trans hsq)
    set traj : Traj ℝ n 2 := fun j s => if s.val = 0 then cur j else scen.logTrajectory j t' with htraj
    have hinv : (deltaLocal P).inverse traj md ((0 : Fin 2) : Int) i =
        { data := { dx := a, dy := b, dyaw := wrapYaws (q.yaw - (cur i).yaw) }, valid := true } := by
      have hwin : window2 (traj i) ((0 : Fin 2) : Int) = (traj i 0, traj i 1) := window2_eq (t := 0) (t' := 1) _ rfl
      have e0 : traj i 0 = cur i := rfl
      have e1 : traj i 1 = q := rfl
      have e2 : dynIndex (traj i) ((0 : Fin 2) : Int) = cur i := dynIndex_of_eq _ (t := 0) rfl
      change deltaLocalInverse P (traj i) _ = _
      unfold deltaLocalInverse deltaGlobalInverse
      rw [hwin, e0, e1, e2]
      simp only [hv, hv', Bool.and_self, if_true, deltaClip, clip_id_abs (ax.trans (min_le_left _ _)),
        clip_id_abs (ay.trans (min_le_right _ _)), hab, C21_wrap_idempotent, clip_id_abs (ha.trans (min_le_left _ _)),
        clip_id_abs (hb.trans (min_le_right _ _))]
    have hr := C21_wrap_range (q.yaw - (cur i).yaw)
    have hact := discrete_action (deltaLocal P) h1 h2 h3 h4 h5 h6 traj md ((0 : Fin 2) : Int) i
      (by rw [hinv]; exact ha.trans (min_le_left _ _)) (by rw [hinv]; exact hb.trans (min_le_right _ _))
      (by rw [hinv]; exact abs_le.2 ⟨hr.1, hr.2.le⟩)
    dsimp only at hact
    rw [hinv] at hact
    dsimp only at hact
    obtain ⟨⟨-, cx⟩, ⟨-, cy⟩, cz⟩ := hact
    set w := deltaCodec.ofRow (makeContinuous (deltaDims P bx by' byaw)
      ((discreteWrapper (deltaLocal P) deltaCodec (deltaDims P bx by' byaw)).inverse traj md ((0 : Fin 2) : Int) i).data)
      with hwdef
    have ux : u.x = (cur i).x + (rotatePoints (rotationMatrix2d (cur i).yaw) (w.dx, w.dy)).1 := rfl
    have uy : u.y = (cur i).y + (rotatePoints (rotationMatrix2d (cur i).yaw) (w.dx, w.dy)).2 := rfl
    have uz : u.yaw = (cur i).yaw + w.dyaw := rfl
    refine ⟨?_, ?_⟩
    · have hlin : ((cur i).x + (rotatePoints (rotationMatrix2d (cur i).yaw) (w.dx, w.dy)).1 - q.x) ^ 2 +
          ((cur i).y + (rotatePoints (rotationMatrix2d (cur i).yaw) (w.dx, w.dy)).2 - q.y) ^ 2 =
          (a - w.dx) ^ 2 + (b - w.dy) ^ 2 := by
        have e := rotate_normSq (cur i).yaw (a - w.dx, b - w.dy)
        have b1 : q.x = (cur i).x + (rotatePoints (rotationMatrix2d (cur i).yaw) (a, b)).1 := by rw [hback]; ring
        have b2 : q.y = (cur i).y + (rotatePoints (rotationMatrix2d (cur i).yaw) (a, b)).2 := by rw [hback]; ring
        dsimp only at e
        rw [b1, b2, ← e]
        simp only [rotatePoints, rotationMatrix2d, Matrix.of_apply, Matrix.cons_val', Matrix.cons_val_zero,
          Matrix.cons_val_one, Matrix.cons_val_fin_one]
        ring
      rw [hpx, hpy, ux, uy]
      unfold dist2
      dsimp only
      rw [hlin]
      apply sqrt_le_sqrt
      have s1 := sq_le_sq' (by linarith [(abs_le.1 cx).1]) (abs_le.1 cx).2
      have s2 := sq_le_sq' (by linarith [(abs_le.1 cy).1]) (abs_le.1 cy).2
      linarith
    · rw [hpz, uz]
      exact HeadingWithin.of_wrap cz

/-- The log and the clock of the states of a rollout. -/
theorem rollout_clock {D : Type} {d : DynamicsModel ℝ D n} {cfg : EnvConfig} {metrics : SimState ℝ n T → Except Err M}
    {reward : SimState ℝ n T → (Fin n → Act D) → Except Err R} {X C : Type}
    {actor : Actor (SimState ℝ n T) (Fin n → Act D) X K Q C} {split : K → K × K} {params : Q}
    {zerosLike : (Fin n → Act D) → (Fin n → Act D)} {scen : SimState ℝ n T} {rng : K} {N : Nat}
    {out : List (RolloutEntry (SimState ℝ n T) (Fin n → Act D) (SimState ℝ n T) M R)}
    (h : rollout (baseEnv d cfg metrics reward) actor split params zerosLike scen rng N = .ok out) (k : Nat) (hk : k < out.length) :
    out.length = N + 1 ∧ out[k].state.logTrajectory = scen.logTrajectory ∧ out[k].state.timestep = (cfg.initSteps : Int) - 1 + k := by
  obtain ⟨hN, hlen, hreset, hstep, -⟩ := C14_rollout_spec h
  refine ⟨hlen, ?_⟩
  induction k with
  | zero =>
    have hr := C01_reset_spec hreset
    exact ⟨hr.2.2.2.log, by simpa using hr.1⟩
  | succ k ih =>
    obtain ⟨hlog, hts⟩ := ih (by omega)
    have hst : step d cfg out[k].state out[k].action = .ok out[k + 1].state := hstep k (by omega)
    obtain ⟨m, hm, heq⟩ := step_ok hst
    rw [heq]
    exact ⟨hlog, by simp only [hts]; omega⟩

/-- The log divergence metric of an expert rollout with discretised displacements never exceeds half the diagonal of a bin, however
long the rollout. -/
theorem C189_log_divergence_global {P : DeltaParams} {bx by' byaw : ℕ} {cfg : EnvConfig}
    (h1 : 0 < P.maxDx) (h2 : 0 < P.maxDy) (h3 : π ≤ P.maxDyaw) (h4 : 1 ≤ bx) (h5 : 1 ≤ by') (h6 : 1 ≤ byaw)
    {metrics : SimState ℝ n T → Except Err M} {reward : SimState ℝ n T → (Fin n → Act ℤ) → Except Err R}
    {mask : SimState ℝ n T → Fin n → Bool} {split : K → K × K} {params : Q}
    {zerosLike : (Fin n → Act ℤ) → (Fin n → Act ℤ)} {scen : SimState ℝ n T} {rng : K} {N : Nat}
    {out : List (RolloutEntry (SimState ℝ n T) (Fin n → Act ℤ) (SimState ℝ n T) M R)}
    (h : rollout (baseEnv (discreteWrapper (deltaGlobal P) deltaCodec (deltaDims P bx by' byaw)) cfg metrics reward)
      (expertActor (discreteWrapper (deltaGlobal P) deltaCodec (deltaDims P bx by' byaw)) mask) split params zerosLike
      scen rng N = .ok out)
    (hw : 1 ≤ cfg.initSteps) (hfit : cfg.initSteps + N ≤ T) (i : Fin n)
    (hlv : ∀ t : Fin T, cfg.initSteps ≤ (t : Nat) + 1 → (scen.logTrajectory i t).valid = true)
    (hlog : ∀ t t' : Fin T, (t' : Nat) = t + 1 → cfg.initSteps ≤ (t' : Nat) →
      |(scen.logTrajectory i t').x - (scen.logTrajectory i t).x| ≤ P.maxDx ∧
      |(scen.logTrajectory i t').y - (scen.logTrajectory i t).y| ≤ P.maxDy)
    (k : Nat) (hk : k < out.length) :
    (logDivergenceMetric out[k].state i).value ≤ √((P.maxDx / bx) ^ 2 + (P.maxDy / by') ^ 2) := by
  obtain ⟨hlen, hl, hts⟩ := rollout_clock h k hk
  have ht : ((⟨cfg.initSteps - 1 + k, by omega⟩ : Fin T) : Int) = out[k].state.timestep := by rw [hts]; simp only; omega
  obtain ⟨nx, ny, -⟩ := C189_discrete_expert_global h1 h2 h3 h4 h5 h6 h hw hfit i hlv hlog k hk _ (le_of_eq ht)
  rw [(C36_log_divergence out[k].state ht i).1, hl]
  unfold dist2
  apply sqrt_le_sqrt
  dsimp only
  have s1 := sq_le_sq' (abs_le.1 nx).1 (abs_le.1 nx).2
  have s2 := sq_le_sq' (abs_le.1 ny).1 (abs_le.1 ny).2
  linarith

/-- The same for displacements in the object's frame. -/
theorem C189_log_divergence_local {P : DeltaParams} {bx by' byaw : ℕ} {cfg : EnvConfig}
    (h1 : 0 < P.maxDx) (h2 : 0 < P.maxDy) (h3 : π ≤ P.maxDyaw) (h4 : 1 ≤ bx) (h5 : 1 ≤ by') (h6 : 1 ≤ byaw)
    {metrics : SimState ℝ n T → Except Err M} {reward : SimState ℝ n T → (Fin n → Act ℤ) → Except Err R}
    {mask : SimState ℝ n T → Fin n → Bool} {split : K → K × K} {params : Q}
    {zerosLike : (Fin n → Act ℤ) → (Fin n → Act ℤ)} {scen : SimState ℝ n T} {rng : K} {N : Nat}
    {out : List (RolloutEntry (SimState ℝ n T) (Fin n → Act ℤ) (SimState ℝ n T) M R)}
    (h : rollout (baseEnv (discreteWrapper (deltaLocal P) deltaCodec (deltaDims P bx by' byaw)) cfg metrics reward)
      (expertActor (discreteWrapper (deltaLocal P) deltaCodec (deltaDims P bx by' byaw)) mask) split params zerosLike
      scen rng N = .ok out)
    (hw : 1 ≤ cfg.initSteps) (hfit : cfg.initSteps + N ≤ T) (i : Fin n)
    (hlv : ∀ t : Fin T, cfg.initSteps ≤ (t : Nat) + 1 → (scen.logTrajectory i t).valid = true)
    (hlog : ∀ t t' : Fin T, (t' : Nat) = t + 1 → cfg.initSteps ≤ (t' : Nat) →
      dist2 ((scen.logTrajectory i t').x, (scen.logTrajectory i t').y)
        ((scen.logTrajectory i t).x, (scen.logTrajectory i t).y) + √((P.maxDx / bx) ^ 2 + (P.maxDy / by') ^ 2) ≤
          min P.maxDx P.maxDy)
    (k : Nat) (hk : k < out.length) :
    (logDivergenceMetric out[k].state i).value ≤ √((P.maxDx / bx) ^ 2 + (P.maxDy / by') ^ 2) := by
  obtain ⟨hlen, hl, hts⟩ := rollout_clock h k hk
  have ht : ((⟨cfg.initSteps - 1 + k, by omega⟩ : Fin T) : Int) = out[k].state.timestep := by rw [hts]; simp only; omega
  rw [(C36_log_divergence out[k].state ht i).1, hl]
  exact (C189_discrete_expert_local h1 h2 h3 h4 h5 h6 h hw hfit i hlv hlog k hk _ (le_of_eq ht)).1

end

/-- Non-vacuity: the drive of one metre per step meets the hypotheses of both theorems with the default bounds and 100 x 100 x
360 bins, and the rollouts exist. -/
example : ∃ out,
    rollout (K := Nat) (P := Unit) (baseEnv (discreteWrapper (deltaGlobal {}) deltaCodec (deltaDims {} 100 100 360)) driveCfg
      (fun _ => .ok ()) (fun _ _ => .ok (0 : Int)))
      (expertActor (discreteWrapper (deltaGlobal {}) deltaCodec (deltaDims {} 100 100 360)) (fun s i => (s.objectMetadata i).isSdc))
      (fun k => (k, k + 1)) () id driveScen 0 3 = .ok out ∧
    ∀ k (hk : k < out.length) (t : Fin 4), (t : Int) ≤ out[k].state.timestep →
      NearLog (6 / (100 : ℕ)) (6 / (100 : ℕ)) (π / (360 : ℕ)) (out[k].state.simTrajectory 0 t) (driveScen.logTrajectory 0 t) := by
  obtain ⟨out, ho⟩ := C14_rollout_succeeds (K := Nat) (P := Unit)
    (baseEnv (discreteWrapper (deltaGlobal {}) deltaCodec (deltaDims {} 100 100 360)) driveCfg (fun _ => .ok ())
      (fun _ _ => .ok (0 : Int)))
    (expertActor (discreteWrapper (deltaGlobal {}) deltaCodec (deltaDims {} 100 100 360)) (fun s i => (s.objectMetadata i).isSdc))
    (fun k => (k, k + 1)) () id driveScen 0 (n := 3)
    (by decide) ⟨_, rfl⟩ (fun s a => step_exists _ _ s a (by decide)) (fun _ => ⟨_, rfl⟩) (fun _ _ => ⟨_, rfl⟩)
  refine ⟨out, ho, ?_⟩
  intro k hk t ht
  refine C189_discrete_expert_global (P := {}) (by norm_num) (by norm_num) le_rfl (by norm_num) (by norm_num) (by norm_num) ho
    (by decide) (by decide) 0 (fun _ _ => rfl) ?_ k hk t ht
  intro t t' htt _
  simp [driveScen, ptAt, htt]

example : ∃ out,
    rollout (K := Nat) (P := Unit) (baseEnv (discreteWrapper (deltaLocal {}) deltaCodec (deltaDims {} 100 100 360)) driveCfg
      (fun _ => .ok ()) (fun _ _ => .ok (0 : Int)))
      (expertActor (discreteWrapper (deltaLocal {}) deltaCodec (deltaDims {} 100 100 360)) (fun s i => (s.objectMetadata i).isSdc))
      (fun k => (k, k + 1)) () id driveScen 0 3 = .ok out ∧
    ∀ k (hk : k < out.length) (t : Fin 4), (t : Int) ≤ out[k].state.timestep →
      NearLogDist √((6 / (100 : ℕ)) ^ 2 + (6 / (100 : ℕ)) ^ 2) (π / (360 : ℕ)) (out[k].state.simTrajectory 0 t)
        (driveScen.logTrajectory 0 t) := by
  obtain ⟨out, ho⟩ := C14_rollout_succeeds (K := Nat) (P := Unit)
    (baseEnv (discreteWrapper (deltaLocal {}) deltaCodec (deltaDims {} 100 100 360)) driveCfg (fun _ => .ok ())
      (fun _ _ => .ok (0 : Int)))
    (expertActor (discreteWrapper (deltaLocal {}) deltaCodec (deltaDims {} 100 100 360)) (fun s i => (s.objectMetadata i).isSdc))
    (fun k => (k, k + 1)) () id driveScen 0 (n := 3)
    (by decide) ⟨_, rfl⟩ (fun s a => step_exists _ _ s a (by decide)) (fun _ => ⟨_, rfl⟩) (fun _ _ => ⟨_, rfl⟩)
  refine ⟨out, ho, ?_⟩
  intro k hk t ht
  refine C189_discrete_expert_local (P := {}) (by norm_num) (by norm_num) le_rfl (by norm_num) (by norm_num) (by norm_num) ho
    (by decide) (by decide) 0 (fun _ _ => rfl) ?_ k hk t ht
  intro t t' htt _
  have hd : dist2 ((driveScen.logTrajectory 0 t').x, (driveScen.logTrajectory 0 t').y)
        ((driveScen.logTrajectory 0 t).x, (driveScen.logTrajectory 0 t).y) = 1 := by
    simp [dist2, driveScen, ptAt, htt]
  rw [hd]
  have : √((6 / ((100 : ℕ) : ℝ)) ^ 2 + (6 / ((100 : ℕ) : ℝ)) ^ 2) ≤ 1 := by
    rw [sqrt_le_left (by norm_num)]; norm_num
  simp only [min_self]
  linarith

end Waymax
