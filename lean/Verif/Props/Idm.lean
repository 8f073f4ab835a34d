import Verif.Lemmas.Agents
import Verif.Examples
/-
C47, C48, C77, C79: the IDM agent's speed (real arithmetic).
-/

namespace Waymax

open Real

section
variable {n T : Nat} [NeZero T]

/-- What a step of IDM computes, once its way points are known. -/
theorem idmUpdateSpeed_eq {P : IdmParams} {s : SimState ℝ n T} {i : Fin n} {t : Fin T} (ht : (t : Int) = s.timestep)
    {ws : List (Pt ℝ)} (hws : idmLookahead P (s.logTrajectory i) (s.simTrajectory i t) = .ok ws) (h0 : ws.length ≠ 0) :
    idmUpdateSpeed P s i = .ok (
      let cur := fun j => s.simTrajectory j t
      (speedAfter (cur i).speed (idmFormula P (cur i).speed
        (computeLeadVelocity (fun j => (cur j).speed) (fun j => (cur j).valid) (ws.map fun w => idmCollision cur i w))
        (computeLeadDistance ws (fun w => (List.ofFn fun j => idmCollision cur i w j).any id) (cur i))), true)) := by
  unfold idmUpdateSpeed idmAccel
  simp only [dynIndex_of_eq _ ht, hws, bind, Except.bind, pure, Except.pure, speedAfter, h0, if_false]
  simp only [Except.ok.injEq, Prod.mk.injEq, and_true]
  split
  · rename_i h; exact (max_eq_left h.le).symm
  · rename_i h; exact (max_eq_right (not_lt.1 h)).symm

theorem idmUpdateSpeed_lookahead {P : IdmParams} {s : SimState ℝ n T} {i : Fin n} {t : Fin T} (ht : (t : Int) = s.timestep)
    {r : ℝ × Bool} (h : idmUpdateSpeed P s i = .ok r) :
    ∃ ws, idmLookahead P (s.logTrajectory i) (s.simTrajectory i t) = .ok ws := by
  unfold idmUpdateSpeed idmAccel at h
  simp only [dynIndex_of_eq _ ht] at h
  cases hl : idmLookahead P (s.logTrajectory i) (s.simTrajectory i t) with
  | ok ws => exact ⟨ws, rfl⟩
  | error e =>
    rw [hl] at h
    cases h

theorem idmUpdateSpeed_nonempty {P : IdmParams} {s : SimState ℝ n T} {i : Fin n} {t : Fin T} (ht : (t : Int) = s.timestep)
    {ws : List (Pt ℝ)} (hws : idmLookahead P (s.logTrajectory i) (s.simTrajectory i t) = .ok ws) {r : ℝ × Bool}
    (h : idmUpdateSpeed P s i = .ok r) : ws.length ≠ 0 := by
  intro h0
  unfold idmUpdateSpeed idmAccel at h
  simp only [dynIndex_of_eq _ ht, hws, bind, Except.bind, h0, if_true] at h
  cases h

theorem idmFormula_leader (P : IdmParams) (v : ℝ) {u g : ℝ} (hu : 0 ≤ u) (hg : 0 ≤ g) :
    idmFormula P v u g = idmFollow P v u g := by
  have hc : ¬ (g = -1 ∨ u = -1) := by
    rintro (h | h) <;> linarith
  unfold idmFormula idmFollow idmFree idmDesiredGap
  simp only [hc, if_false]
  ring

/-! ### C48: the leader -/

/-- For any setting: with `ws` the way points, either nobody is met along them and the free-road formula is used, or there is a
leader (`LeadSpeed`, `LeadGap`) and the car-following formula is used with its speed and gap. Never more than one of the two. -/
theorem C48_leader {P : IdmParams} {s : SimState ℝ n T} {i : Fin n} {t : Fin T} (ht : (t : Int) = s.timestep)
    (hv : (s.simTrajectory i t).valid = true) {ws : List (Pt ℝ)}
    (hws : idmLookahead P (s.logTrajectory i) (s.simTrajectory i t) = .ok ws) {r : ℝ × Bool}
    (h : idmUpdateSpeed P s i = .ok r) :
    let cur := fun j => s.simTrajectory j t
    let v := speedOf (cur i)
    r.2 = true ∧
    (FreeRoad cur i ws → r.1 = speedAfter v (idmFree P v)) ∧
    (¬ FreeRoad cur i ws → ∃ u g, LeadSpeed cur i ws u ∧ LeadGap cur i ws g ∧ r.1 = speedAfter v (idmFollow P v u g)) := by
  intro cur v
  rw [idmUpdateSpeed_eq ht hws (idmUpdateSpeed_nonempty ht hws h)] at h
  have hr := Except.ok.inj h
  have hsp : (s.simTrajectory i t).speed = v := Pt.speed_eq hv
  simp only [hsp] at hr
  have hlv := leadVelocity_spec cur i ws
  have hld := leadDistance_spec cur i ws
  simp only at hlv hld
  refine ⟨by rw [← hr], fun hf => ?_, fun hf => ?_⟩
  · rcases hlv with ⟨-, hlv⟩ | hlv
    · rcases hld with ⟨-, hld⟩ | hld
      · rw [← hr]
        simp only
        rw [hlv, hld]
        congr 1
        simp [idmFormula, idmFree]
      · exact absurd hf hld.not_free
    · exact absurd hf hlv.not_free
  · rcases hlv with ⟨hf', -⟩ | hlv
    · exact absurd hf' hf
    · rcases hld with ⟨hf', -⟩ | hld
      · exact absurd hf' hf
      · refine ⟨_, _, hlv, hld, ?_⟩
        rw [← hr]
        simp only
        exact congrArg _ (idmFormula_leader P v hlv.nonneg hld.nonneg)

/-- Way points of the default setting: the current point, then `N` points evenly spaced over the distance `D` straight ahead.
They do not depend on the log. -/
theorem lookahead_default {P : IdmParams} (hP : P.lookaheadFromCurrentPosition = true) (hN : 0 < P.additionalLookaheadPoints)
    (log : Fin T → Pt ℝ) (p : Pt ℝ) :
    idmLookahead P log p = .ok ((List.range (P.additionalLookaheadPoints + 1)).map fun k : Nat =>
      aheadOf p (P.additionalLookaheadDistance * k / P.additionalLookaheadPoints)) := by
  unfold idmLookahead findReference
  simp only [hP, if_true, le_refl, dite_true, bind, Except.bind, gt_iff_lt, hN]
  have h0 : List.ofFn (dynSlice (fun _ : Fin 1 => p) (argminFin fun t : Fin 1 =>
      orInf p.valid (dist3 p p) : Nat) 1 (le_refl 1)) = [p] := by
    simp [dynSlice]
  rw [h0]
  unfold addHeadwayWaypoints
  simp only [List.getLast?_singleton, Except.ok.injEq]
  rw [List.range_succ_eq_map, List.map_cons, List.singleton_append, List.map_map]
  congr 1
  · simp [aheadOf]
  · apply List.map_congr_left
    intro k _
    simp only [Function.comp_apply, aheadOf, heading]
    congr 1 <;> ring

theorem aheadOf_gap (p : Pt ℝ) {g : ℝ} (hg : 0 ≤ g) :
    √((p.x - (aheadOf p g).x) ^ 2 + (p.y - (aheadOf p g).y) ^ 2 + (p.z - (aheadOf p g).z) ^ 2) = g := by
  have : (p.x - (aheadOf p g).x) ^ 2 + (p.y - (aheadOf p g).y) ^ 2 + (p.z - (aheadOf p g).z) ^ 2 = g ^ 2 := by
    simp only [aheadOf, heading]
    have := sin_sq_add_cos_sq p.yaw
    linear_combination g ^ 2 * this
  rw [this, Real.sqrt_sq hg]

/-- The default setting, spelled out. `IDMRoutePolicy` looks straight ahead from the current pose at the points `D k / N`,
`k = 0, ..., N`. If no other valid object would be overlapped at any of them, the free-road formula is used. Otherwise let `k` be
the first point where one is: the gap is `D k / N` (10 cm if that is 0), and the leader's speed is the smallest speed among the
objects overlapped there. -/
theorem C48_default {P : IdmParams} (hP : P.lookaheadFromCurrentPosition = true) (hN : 0 < P.additionalLookaheadPoints)
    (hD : 0 ≤ P.additionalLookaheadDistance) {s : SimState ℝ n T} {i : Fin n} {t : Fin T} (ht : (t : Int) = s.timestep)
    (hv : (s.simTrajectory i t).valid = true) :
    let cur := fun j => s.simTrajectory j t
    let v := speedOf (cur i)
    let dist := fun k : Nat => P.additionalLookaheadDistance * k / P.additionalLookaheadPoints
    let meets := fun (k : Nat) (j : Fin n) => Meets cur i (aheadOf (cur i) (dist k)) j
    ∃ speed, idmUpdateSpeed P s i = .ok (speed, true) ∧
      ((∀ k ≤ P.additionalLookaheadPoints, ∀ j, ¬ meets k j) → speed = speedAfter v (idmFree P v)) ∧
      ∀ k ≤ P.additionalLookaheadPoints, (∀ k' < k, ∀ j, ¬ meets k' j) → (∃ j, meets k j) →
        ∃ j, meets k j ∧ (∀ j', meets k j' → speedOf (cur j) ≤ speedOf (cur j')) ∧
          speed = speedAfter v (idmFollow P v (speedOf (cur j)) (dist k)) := by
  intro cur v dist meets
  have hws := lookahead_default (T := T) hP hN (s.logTrajectory i) (s.simTrajectory i t)
  obtain ⟨r, hr⟩ : ∃ r, idmUpdateSpeed P s i = .ok r := ⟨_, idmUpdateSpeed_eq ht hws (by simp)⟩
  have hN' : (0 : ℝ) < P.additionalLookaheadPoints := by exact_mod_cast hN
  have hdist : ∀ k, 0 ≤ dist k := fun k => by simp only [dist]; positivity
  have hmono : ∀ k k', k ≤ k' → dist k ≤ dist k' := by
    intro k k' hk
    simp only [dist]
    have : (k : ℝ) ≤ k' := by exact_mod_cast hk
    gcongr
  obtain ⟨h1, h2, h3⟩ := C48_leader ht hv hws hr
  refine ⟨r.1, by rw [hr]; exact congrArg Except.ok (Prod.ext rfl h1), ?_, ?_⟩
  · intro hf
    apply h2
    intro w hw j
    obtain ⟨k, hk, rfl⟩ := List.mem_map.1 hw
    exact hf k (by have := List.mem_range.1 hk; omega) j
  · intro k hk hpre hj
    set ws := (List.range (P.additionalLookaheadPoints + 1)).map fun k : Nat =>
      aheadOf (s.simTrajectory i t) (P.additionalLookaheadDistance * k / P.additionalLookaheadPoints) with hwsdef
    have hmem : ∀ k ≤ P.additionalLookaheadPoints, aheadOf (cur i) (dist k) ∈ ws := fun k hk =>
      List.mem_map.2 ⟨k, List.mem_range.2 (by omega), rfl⟩
    have hnf : ¬ FreeRoad cur i ws := fun hf => by
      obtain ⟨j, hj⟩ := hj
      exact hf _ (hmem k hk) j hj
    obtain ⟨u, g, hu, hg, hs⟩ := h3 hnf
    -- the gap
    have hgk : LeadGap cur i ws (dist k) := by
      refine ⟨⟨_, hmem k hk, hj, (aheadOf_gap (cur i) (hdist k)).symm⟩, ?_⟩
      intro w hw hm
      obtain ⟨k', -, rfl⟩ := List.mem_map.1 hw
      have hkk : k ≤ k' := by
        by_contra hlt
        obtain ⟨j', hj'⟩ := hm
        exact hpre k' (by omega) j' hj'
      have := aheadOf_gap (cur i) (hdist k')
      exact (hmono k k' hkk).trans this.symm.le
    -- the speed
    obtain ⟨j, hjm, hjmin⟩ : ∃ j, meets k j ∧ ∀ j', meets k j' → speedOf (cur j) ≤ speedOf (cur j') := by
      classical
      have hfin : (Finset.univ.filter fun j => meets k j).Nonempty := by
        obtain ⟨j, hj⟩ := hj
        exact ⟨j, by simp [hj]⟩
      obtain ⟨j, hj, hmin⟩ := Finset.exists_min_image _ (fun j => speedOf (cur j)) hfin
      refine ⟨j, by simpa using hj, fun j' hj' => hmin j' (by simp [hj'])⟩
    have huk : LeadSpeed cur i ws (speedOf (cur j)) := by
      refine ⟨(List.range k).map fun k => aheadOf (cur i) (dist k), aheadOf (cur i) (dist k),
        (List.range (P.additionalLookaheadPoints - k)).map fun l => aheadOf (cur i) (dist (k + 1 + l)), ?_, ?_,
        ⟨j, hjm, rfl⟩, hjmin⟩
      · have hr : List.range (P.additionalLookaheadPoints + 1) =
            List.range k ++ k :: (List.range (P.additionalLookaheadPoints - k)).map (fun l => k + 1 + l) := by
          have h1 : P.additionalLookaheadPoints + 1 = k + 1 + (P.additionalLookaheadPoints - k) := by omega
          rw [h1, List.range_add, List.range_succ]
          simp
        rw [hwsdef, hr, List.map_append, List.map_cons, List.map_map]
        rfl
      · intro w hw j'
        obtain ⟨k', hk', rfl⟩ := List.mem_map.1 hw
        exact hpre k' (List.mem_range.1 hk') j'
    refine ⟨j, hjm, hjmin, ?_⟩
    rw [hs, hu.unique huk, hg.unique hgk]

/-- Length of the look-ahead: the window, which has to fit into the log, and the points added ahead of its last point. -/
theorem idmLookahead_length (P : IdmParams) (log : Fin T → Pt ℝ) (p : Pt ℝ) :
    if P.lookaheadFromCurrentPosition = false ∧ (T < P.maxLookahead ∨ (P.maxLookahead = 0 ∧ 0 < P.additionalLookaheadPoints)) then
      ∃ e, idmLookahead P log p = .error e
    else ∃ ws, idmLookahead P log p = .ok ws ∧
      ws.length = (if P.lookaheadFromCurrentPosition then 1 else P.maxLookahead) + P.additionalLookaheadPoints := by
  have hadd : ∀ ws : List (Pt ℝ), ws.length ≠ 0 → ∃ ws', (if P.additionalLookaheadPoints > 0 then
      addHeadwayWaypoints ws P.additionalLookaheadDistance P.additionalLookaheadPoints else .ok ws) = .ok ws' ∧
      ws'.length = ws.length + P.additionalLookaheadPoints := by
    intro ws h0
    split
    · unfold addHeadwayWaypoints
      rw [List.getLast?_eq_some_getLast (by intro h; simp [h] at h0)]
      exact ⟨_, rfl, by simp⟩
    · exact ⟨ws, rfl, by omega⟩
  unfold idmLookahead
  cases hP : P.lookaheadFromCurrentPosition with
  | true =>
    simp only [Bool.true_eq_false, false_and, if_false, if_true]
    obtain ⟨ws, h1, h2⟩ := hadd (List.ofFn (dynSlice (fun _ : Fin 1 => p) (argminFin fun t : Fin 1 => orInf p.valid (dist3 p p) : Nat) 1 (le_refl 1)))
      (by simp)
    refine ⟨ws, ?_, by simpa using h2⟩
    unfold findReference
    simp only [le_refl, dite_true, bind, Except.bind]
    exact h1
  | false =>
    simp only [true_and, Bool.false_eq_true, if_false]
    by_cases hT : P.maxLookahead ≤ T
    · unfold findReference
      simp only [hT, dite_true, bind, Except.bind, not_lt.2 hT, false_or]
      rcases Nat.eq_zero_or_pos P.maxLookahead with h0 | h0
      · have hnil : (List.ofFn (dynSlice log ↑(argminFin fun t => orInf (log t).valid (dist3 p (log t))) P.maxLookahead hT)) = [] :=
          List.eq_nil_of_length_eq_zero (by simp [h0])
        rw [hnil]
        by_cases hN : 0 < P.additionalLookaheadPoints
        · rw [if_pos ⟨h0, hN⟩, if_pos hN]
          exact ⟨_, rfl⟩
        · rw [if_neg (by omega), if_neg hN]
          exact ⟨[], rfl, by simp; omega⟩
      · rw [if_neg (by omega)]
        obtain ⟨ws, h1, h2⟩ := hadd (List.ofFn (dynSlice log ↑(argminFin fun t => orInf (log t).valid (dist3 p (log t))) P.maxLookahead hT))
          (by simp; omega)
        exact ⟨ws, h1, by simpa using h2⟩
    · rw [if_pos (.inl (not_le.1 hT))]
      unfold findReference
      simp only [hT, dite_false, bind, Except.bind]
      exact ⟨_, rfl⟩

/-- The update can only fail for a static reason: a look-ahead window of the log that is empty or longer than the log. It does not
depend on the state, and the default setting never fails. -/
theorem C48_fails_iff (P : IdmParams) (s : SimState ℝ n T) (i : Fin n) :
    (∃ e, idmUpdateSpeed P s i = .error e) ↔
      P.lookaheadFromCurrentPosition = false ∧ (T < P.maxLookahead ∨ P.maxLookahead = 0) := by
  have hl := idmLookahead_length P (s.logTrajectory i) (dynIndex (s.simTrajectory i) s.timestep)
  unfold idmUpdateSpeed idmAccel
  split at hl
  · rename_i hc
    obtain ⟨e, he⟩ := hl
    simp only [bind, Except.bind, he]
    refine ⟨fun _ => ⟨hc.1, ?_⟩, fun _ => ⟨e, rfl⟩⟩
    rcases hc.2 with h | h
    · exact .inl h
    · exact .inr h.1
  · rename_i hc
    obtain ⟨ws, he, hlen⟩ := hl
    simp only [bind, Except.bind, he]
    by_cases h0 : ws.length = 0
    · simp only [h0, if_true]
      refine ⟨fun _ => ?_, fun _ => ⟨_, rfl⟩⟩
      rw [h0] at hlen
      cases hP : P.lookaheadFromCurrentPosition with
      | true => rw [hP] at hlen; simp at hlen; omega
      | false => rw [hP] at hlen; simp at hlen; exact ⟨rfl, .inr (by omega)⟩
    · simp only [h0, if_false]
      refine ⟨fun ⟨e, h⟩ => (by cases h), fun ⟨h1, h2⟩ => ?_⟩
      rw [h1] at hlen
      simp only [Bool.false_eq_true, if_false] at hlen
      exact absurd ⟨h1, h2.imp id fun h => ⟨h, by omega⟩⟩ hc

end

end Waymax
