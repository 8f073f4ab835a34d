import Verif.Model.Metrics
import Verif.Lemmas.Select
import Verif.Spec.Metrics
import Verif.Props.Overlap
import Verif.Props.EpisodeGaps
/-
C27, C36 - C40, C43, C60: metrics, one-hot selection and masked means (real arithmetic).
-/

namespace Waymax

section
variable {n T : Nat} [NeZero T]

/-! ### C27: overlap metric -/

/-- At the current step `t`, the overlap metric of object `i` is 1 exactly when the interior of its box meets that of some
other valid object, 0 otherwise; the entry is valid iff the object is. -/
theorem C27_overlap_metric (s : SimState ℝ n T) {t : Fin T} (ht : (t : Int) = s.timestep) (i : Fin n) :
    let cur := fun j => s.simTrajectory j t
    let interior := fun j => rectInterior (cur j).x (cur j).y (cur j).length (cur j).width (cur j).yaw
    ((overlapMetric s i).value = 1 ↔ ∃ j, j ≠ i ∧ (cur j).valid = true ∧ (interior i ∩ interior j).Nonempty) ∧
    ((overlapMetric s i).value = 0 ∨ (overlapMetric s i).value = 1) ∧
    (overlapMetric s i).valid = (cur i).valid := by
  intro cur interior
  have hcur : (fun j => dynIndex (s.simTrajectory j) s.timestep) = cur := by
    funext j; exact dynIndex_of_eq _ ht
  have hval : (overlapMetric s i).value = 1 ↔ ∃ j, j ≠ i ∧ (cur j).valid = true ∧ (interior i ∩ interior j).Nonempty := by
    unfold overlapMetric
    rw [hcur]
    unfold computeOverlap
    simp only
    constructor
    · intro h
      split at h
      · rename_i hpos
        obtain ⟨j, -, hj⟩ := Finset.exists_ne_zero_of_sum_ne_zero (Nat.pos_iff_ne_zero.1 hpos)
        split at hj
        · rename_i hc
          obtain ⟨hov, hv⟩ := hc
          unfold computePairwiseOverlaps at hov
          split at hov
          · exact absurd hov id
          · rename_i hne
            refine ⟨j, hne, hv, ?_⟩
            rw [C25_overlap_exact] at hov
            rw [Set.inter_comm]
            exact hov
        · exact absurd rfl hj
      · norm_num at h
    · rintro ⟨j, hne, hv, hm⟩
      rw [if_pos]
      apply Nat.pos_of_ne_zero
      intro h0
      rw [Finset.sum_eq_zero_iff] at h0
      have := h0 j (Finset.mem_univ _)
      rw [if_pos] at this
      · norm_num at this
      · refine ⟨?_, hv⟩
        unfold computePairwiseOverlaps
        rw [if_neg hne, C25_overlap_exact, Set.inter_comm]
        exact hm
  refine ⟨hval, ?_, ?_⟩
  · unfold overlapMetric computeOverlap
    simp only
    split
    · right; rfl
    · left; rfl
  · unfold overlapMetric computeOverlap
    simp only [dynIndex_of_eq _ ht]; rfl

/-- A parked 4 m x 2 m object at `(x, y)`. -/
def parked (x y : ℝ) (v : Bool) : Pt ℝ :=
  { x := x, y := y, z := 0, velX := 0, velY := 0, yaw := 0, valid := v, timestampMicros := 0,
    length := 4, width := 2, height := 1 }

/-- Two parked objects, 3 m apart along x, both valid. -/
def exPair : SimState ℝ 2 1 :=
  { simTrajectory := fun i _ => parked (3 * i.val) 0 true, logTrajectory := fun i _ => parked (3 * i.val) 4 true
    logTrafficLight := [], objectMetadata := fun i => ⟨i.val, 1, decide (i = 0), true, true, false, false⟩
    timestep := 0, sdcPaths := none, roadgraphPoints := none }

example : (overlapMetric exPair 0).value = 1 := by
  rw [(C27_overlap_metric exPair (t := 0) rfl 0).1]
  refine ⟨1, by decide, rfl, (1.5, 0), ⟨1.5, 0, ?_, ?_, ?_⟩, ⟨-1.5, 0, ?_, ?_, ?_⟩⟩ <;>
    norm_num [exPair, parked, pointAt, heading, leftOf, abs_of_nonneg, abs_lt]

/-! ### C36: log divergence -/

/-- Distance between simulated and logged position at the current step, valid iff both are; 0 iff they coincide. -/
theorem C36_log_divergence (s : SimState ℝ n T) {t : Fin T} (ht : (t : Int) = s.timestep) (i : Fin n) :
    let sim := s.simTrajectory i t
    let log := s.logTrajectory i t
    (logDivergenceMetric s i).value = dist2 (sim.x, sim.y) (log.x, log.y) ∧
    ((logDivergenceMetric s i).valid = true ↔ sim.valid = true ∧ log.valid = true) ∧
    ((logDivergenceMetric s i).value = 0 ↔ sim.x = log.x ∧ sim.y = log.y) := by
  unfold logDivergenceMetric
  simp only [dynIndex_of_eq _ ht]
  refine ⟨rfl, by simp, ?_⟩
  rw [hypot_eq_zero]
  simp [sub_eq_zero]

/-- Along every episode of every dynamics model, objects that are not controlled never diverge from the log. -/
theorem C36_uncontrolled_never_diverge {D : Type} {d : DynamicsModel ℝ D n} {cfg : EnvConfig}
    {scen s0 s1 : SimState ℝ n T} {acts : List (Fin n → Act D)} (E : Episode d cfg scen s0 acts s1)
    (i : Fin n) (hi : ¬ IsControlled cfg s0 i) : (logDivergenceMetric s1 i).value = 0 := by
  have hts := E.timestep_eq
  have hw := E.warm
  have hf := E.fits
  have hlog : s1.logTrajectory = scen.logTrajectory := by
    rw [(stepMany_same E.run).log, E.reset_data]
  have ht : ((⟨s1.timestep.toNat, by omega⟩ : Fin T) : Int) = s1.timestep := by simp only; omega
  rw [(C36_log_divergence s1 ht i).2.2, hlog]
  by_cases hlt : s1.timestep.toNat < cfg.initSteps
  · have hd := E.reset_data
    have := stepMany_frame E.run (by rw [hd]; simp only; omega) (by rw [hd]; simp only; omega) i
      ⟨s1.timestep.toNat, by omega⟩ (by left; rw [hd]; simp only; omega)
    rw [this, hd]
    simp only [hlt, if_true, and_self]
  · have := C09_appears_at_logged_pose_partial E i hi (le_of_eq ht) (by simp only; omega)
    exact ⟨this.1, this.2.1⟩

/-! ### C37 - C39: route metrics -/

/-- Either no usable point, or a least distance. -/
theorem minOverPaths_cases (paths : List (SdcPath ℝ)) (use : SdcPath ℝ → Bool) (xy : ℝ × ℝ) :
    let m := minOverPaths paths fun path p => orInf (use path && p.valid) (pathDist xy p)
    (m = ⊤ ∧ distancesTo paths (fun p => use p = true) xy = ∅) ∨
      ∃ d : ℝ, m = d ∧ IsLeast (distancesTo paths (fun p => use p = true) xy) d := by
  intro m
  have key : ∀ d : ℝ, d ∈ distancesTo paths (fun p => use p = true) xy ↔
      (d : WithTop ℝ) ∈ (paths.flatMap fun path => path.points.map fun p => orInf (use path && p.valid) (pathDist xy p)) := by
    intro d
    simp only [distancesTo, Set.mem_ofPred_eq, List.mem_flatMap, List.mem_map]
    constructor
    · rintro ⟨path, hp, hu, p, hpp, hv, rfl⟩
      refine ⟨path, hp, p, hpp, ?_⟩
      simp [orInf, hu, hv]; rfl
    · rintro ⟨path, hp, p, hpp, h⟩
      unfold orInf at h
      split at h
      · rename_i hc
        rw [Bool.and_eq_true] at hc
        exact ⟨path, hp, hc.1, p, hpp, hc.2, (WithTop.coe_injective h).symm⟩
      · exact absurd h WithTop.top_ne_coe
  rcases listMin_cases (paths.flatMap fun path => path.points.map fun p => orInf (use path && p.valid) (pathDist xy p)) with
    ⟨h1, h2⟩ | ⟨d, h1, h2, h3⟩
  · left
    refine ⟨h1, ?_⟩
    ext d
    rw [key]
    constructor
    · intro h; exact absurd (h2 _ h) WithTop.coe_ne_top
    · intro h; exact absurd h (Set.notMem_empty _)
  · right
    refine ⟨d, h1, (key d).2 h2, ?_⟩
    intro e he
    exact WithTop.coe_le_coe.1 (h3 _ ((key e).1 he))

theorem sdcXyCurrent_eq {s : SimState ℝ n T} {k : Fin n} (hk : IsTheSdc s k) {t : Fin T} (ht : (t : Int) = s.timestep) :
    sdcXyCurrent s = ((s.simTrajectory k t).x, (s.simTrajectory k t).y) := by
  unfold sdcXyCurrent
  rw [selectByOnehot_eq _ _ k hk, selectByOnehot_eq _ _ k hk, dynIndex_of_eq _ ht]

theorem sdcValidCurrent_eq {s : SimState ℝ n T} {k : Fin n} (hk : IsTheSdc s k) {t : Fin T} (ht : (t : Int) = s.timestep) :
    sdcValidCurrent s = (s.simTrajectory k t).valid := by
  unfold sdcValidCurrent
  rw [selectByOnehotBool_eq _ _ k hk, dynIndex_of_eq _ ht]

omit [NeZero T] in
theorem sdcXyLog_eq {s : SimState ℝ n T} {k : Fin n} (hk : IsTheSdc s k) (t : Fin T) :
    sdcXyLog s t = ((s.logTrajectory k t).x, (s.logTrajectory k t).y) := by
  unfold sdcXyLog
  rw [selectByOnehot_eq _ _ k hk, selectByOnehot_eq _ _ k hk]

theorem noPathPoints_false {paths : List (SdcPath ℝ)} (h : ∃ path ∈ paths, path.points ≠ []) : noPathPoints paths = false := by
  obtain ⟨path, hp, hne⟩ := h
  unfold noPathPoints
  rw [List.all_eq_false]
  exact ⟨path, hp, by simpa using hne⟩

/-- `sdc_wrongway`, for a state whose SDC is object `k` and whose current step is `t`, when the paths have at least one
point: it is valid iff some path point is valid; if `d` is the distance to the nearest valid point the value is 0 for
`d < 3.5` and `d` otherwise. -/
theorem C37_wrong_way {s : SimState ℝ n T} {k : Fin n} (hk : IsTheSdc s k) {t : Fin T} (ht : (t : Int) = s.timestep)
    {paths : List (SdcPath ℝ)} (hp : s.sdcPaths = some paths) (hne : ∃ path ∈ paths, path.points ≠ []) :
    let sdc := ((s.simTrajectory k t).x, (s.simTrajectory k t).y)
    let D := distancesTo paths (fun _ => True) sdc
    ∃ r, wrongWayMetric s = .ok r ∧ (r.valid = true ↔ D.Nonempty) ∧ (D = ∅ → r.value = 0) ∧
      (∀ d, IsLeast D d → r.value = if d < 3.5 then 0 else d) ∧ (D.Nonempty → ∃ d, IsLeast D d) := by
  intro sdc D
  have hm := minOverPaths_cases paths (fun _ => true) sdc
  simp only [Bool.true_and] at hm
  change _ ∧ D = ∅ ∨ ∃ d : ℝ, _ ∧ IsLeast D d at hm
  unfold wrongWayMetric
  simp only [hp, noPathPoints_false hne, sdcXyCurrent_eq hk ht]
  rcases hm with ⟨h1, h2⟩ | ⟨d, h1, h2⟩
  · refine ⟨⟨0, false⟩, ?_, ?_, fun _ => rfl, ?_, ?_⟩
    · simp only [sdc] at h1; rw [h1]; rfl
    · rw [h2]; simp
    · intro d hd; rw [h2] at hd; exact absurd hd.1 (Set.notMem_empty _)
    · rw [h2]; simp
  · refine ⟨⟨if d < 3.5 then 0 else d, true⟩, ?_, ?_, ?_, ?_, ?_⟩
    · simp only [sdc] at h1; rw [h1]; rfl
    · simp only [true_iff]; exact ⟨d, h2.1⟩
    · intro h; rw [h] at h2; exact absurd h2.1 (Set.notMem_empty _)
    · intro e he
      rw [he.unique h2]
    · intro _; exact ⟨d, h2⟩

/-- Without paths the metric fails; the exception is the AttributeError of `None.xy`. -/
theorem C37_no_paths (s : SimState ℝ n T) (h : s.sdcPaths = none) : wrongWayMetric s = .error .attributeError := by
  unfold wrongWayMetric; rw [h]

/-- `sdc_off_route`: with `on`/`off` the distances of the SDC to the nearest valid on-route/off-route point, the value is `on`
if `on > 5`, or if there is an off-route point with `on - off > 2`; else 0. Invalid and 0 when the SDC is invalid or no
on-route point is valid. -/
theorem C38_off_route {s : SimState ℝ n T} {k : Fin n} (hk : IsTheSdc s k) {t : Fin T} (ht : (t : Int) = s.timestep)
    {paths : List (SdcPath ℝ)} (hp : s.sdcPaths = some paths) (hne : ∃ path ∈ paths, path.points ≠ []) :
    let sdc := ((s.simTrajectory k t).x, (s.simTrajectory k t).y)
    let On := distancesTo paths (fun p => p.onRoute = true) sdc
    let Off := distancesTo paths (fun p => p.onRoute = false) sdc
    ∃ r, offRouteMetric s = .ok r ∧
      (r.valid = true ↔ (s.simTrajectory k t).valid = true ∧ On.Nonempty) ∧
      (r.valid = false → r.value = 0) ∧
      (r.valid = true → ∃ on, IsLeast On on ∧
        (on > 5 → r.value = on) ∧
        (∀ off, IsLeast Off off → on - off > 2 → r.value = on) ∧
        (on ≤ 5 → (∀ off, IsLeast Off off → on - off ≤ 2) → r.value = 0)) := by
  intro sdc On Off
  unfold offRouteMetric
  simp only [hp, noPathPoints_false hne, sdcXyCurrent_eq hk ht, sdcValidCurrent_eq hk ht]
  cases hv : (s.simTrajectory k t).valid with
  | false =>
    have hm : ∀ use : SdcPath ℝ → Bool, (minOverPaths paths fun path p => orInf (use path && (false && p.valid))
        (pathDist ((s.simTrajectory k t).x, (s.simTrajectory k t).y) p)) = ⊤ := by
      intro use
      rcases listMin_cases (paths.flatMap fun path => path.points.map fun p => orInf (use path && (false && p.valid))
        (pathDist ((s.simTrajectory k t).x, (s.simTrajectory k t).y) p)) with ⟨h1, -⟩ | ⟨d, -, h2, -⟩
      · exact h1
      · simp [List.mem_flatMap, orInf] at h2
    refine ⟨⟨0, false⟩, ?_, by simp, fun _ => rfl, by simp⟩
    rw [hm]
    rfl
  | true =>
    have hon := minOverPaths_cases paths (fun p => p.onRoute) sdc
    have hoff := minOverPaths_cases paths (fun p => !p.onRoute) sdc
    have hOff : distancesTo paths (fun p => (!p.onRoute) = true) sdc = Off := by simp [Off]
    rw [hOff] at hoff
    simp only [Bool.true_and]
    rcases hon with ⟨h1, h2⟩ | ⟨d, h1, h2⟩
    · refine ⟨⟨0, false⟩, ?_, ?_, fun _ => rfl, by simp⟩
      · simp only [sdc] at h1; rw [h1]; rfl
      · simp only [Bool.false_eq_true, true_and, false_iff, On]
        rw [h2]; simp
    · have hOn : On.Nonempty := ⟨d, h2.1⟩
      rcases hoff with ⟨g1, g2⟩ | ⟨e, g1, g2⟩
      · refine ⟨⟨if d > 5 then d else 0, true⟩, ?_, by simp [hOn], by simp, ?_⟩
        · simp only [sdc] at h1 g1
          rw [h1, g1]
          simp [exceedsByTwo]
        · intro _
          refine ⟨d, h2, fun h => if_pos h, ?_, fun h _ => if_neg (not_lt.2 h)⟩
          intro off ho
          rw [g2] at ho
          exact absurd ho.1 (Set.notMem_empty _)
      · refine ⟨⟨if d > 5 ∨ d - e > 2 then d else 0, true⟩, ?_, by simp [hOn], by simp, ?_⟩
        · simp only [sdc] at h1 g1
          rw [h1, g1]
          simp [exceedsByTwo]
        · intro _
          refine ⟨d, h2, fun h => if_pos (Or.inl h), ?_, ?_⟩
          · intro off ho h
            rw [ho.unique g2] at h
            exact if_pos (Or.inr h)
          · intro h h'
            exact if_neg (by rintro (h'' | h''); exacts [absurd h'' (not_lt.2 h), absurd h'' (not_lt.2 (h' e g2))])

/-- Without paths the route metrics raise ValueError. -/
theorem C38_no_paths (s : SimState ℝ n T) (h : s.sdcPaths = none) :
    offRouteMetric s = .error .valueError ∧ progressionMetric s = .error .valueError := by
  unfold offRouteMetric progressionMetric; rw [h]; exact ⟨rfl, rfl⟩

theorem argmin_nearest (path : SdcPath ℝ) (xy : ℝ × ℝ) (hv : ∃ p ∈ path.points, p.valid = true) :
    ∃ p, IsNearestOn path xy p ∧ arclengthForPts xy path = p.arcLength := by
  obtain ⟨q, hq, hqv⟩ := hv
  have hne : (path.points.map fun p => orInf p.valid (pathDist xy p)) ≠ [] := by
    intro h; rw [List.map_eq_nil_iff] at h; rw [h] at hq; simp at hq
  obtain ⟨v, h1, h2, h3⟩ := argmin_spec hne
  unfold arclengthForPts
  set k := argmin (path.points.map fun p => orInf p.valid (pathDist xy p)) with hk
  rw [List.getElem?_map, Option.map_eq_some_iff] at h1
  obtain ⟨p, hp, hpv⟩ := h1
  have hfin : v ≤ orInf q.valid (pathDist xy q) := h2 _ (List.mem_map.2 ⟨q, hq, rfl⟩)
  have hpval : p.valid = true := by
    by_contra hc
    rw [← hpv, hqv] at hfin
    simp [orInf, hc] at hfin
  have hvd : v = ((pathDist xy p : ℝ) : WithTop ℝ) := by rw [← hpv, hpval]; rfl
  refine ⟨p, ⟨k, hp, hpval, ?_⟩, by rw [hp]; rfl⟩
  intro j q' hq' hqv'
  constructor
  · have := h2 _ (List.mem_map.2 ⟨q', List.mem_of_getElem? hq', rfl⟩)
    rw [hvd, hqv'] at this
    exact WithTop.coe_le_coe.1 this
  · intro hj
    have := h3 j hj _ (by rw [List.getElem?_map, hq']; rfl)
    simp only [hvd, hqv'] at this
    exact WithTop.coe_lt_coe.1 this

omit [NeZero T] in
theorem firstStep_lt [NeZero T] : 0 < T := Nat.pos_of_ne_zero (NeZero.ne T)

/-- `sdc_progression` for a state whose SDC is `k` and whose current step is `t`. It is valid iff the SDC is and some on-route
point is valid; otherwise it is 0. When valid, take the on-route path nearest to the SDC and, on it, the valid points nearest to
the SDC's current position, logged start (step 0) and logged end (step `T - 1`): the value is the fraction of arc length covered,
or 1 when start and end have the same arc length. -/
theorem C39_progression_exact {s : SimState ℝ n T} {k : Fin n} (hk : IsTheSdc s k) {t : Fin T} (ht : (t : Int) = s.timestep)
    {paths : List (SdcPath ℝ)} (hp : s.sdcPaths = some paths) (hne : ∃ path ∈ paths, path.points ≠ [])
    {first last : Fin T} (hf : first.val = 0) (hl : last.val + 1 = T) :
    let sdc := ((s.simTrajectory k t).x, (s.simTrajectory k t).y)
    let start := ((s.logTrajectory k first).x, (s.logTrajectory k first).y)
    let stop := ((s.logTrajectory k last).x, (s.logTrajectory k last).y)
    ∃ r, progressionMetric s = .ok r ∧
      (r.valid = true ↔ (s.simTrajectory k t).valid = true ∧ (distancesTo paths (fun p => p.onRoute = true) sdc).Nonempty) ∧
      (r.valid = false → r.value = 0) ∧
      (r.valid = true → ∃ path pc ps pe, IsReferencePath paths sdc path ∧
        IsNearestOn path sdc pc ∧ IsNearestOn path start ps ∧ IsNearestOn path stop pe ∧
        r.value = if pe.arcLength = ps.arcLength then 1
          else (pc.arcLength - ps.arcLength) / (pe.arcLength - ps.arcLength)) := by
  intro sdc start stop
  have hfirst : (⟨0, Nat.pos_of_ne_zero (NeZero.ne T)⟩ : Fin T) = first := Fin.ext hf.symm
  have hlast : (⟨T - 1, Nat.sub_lt (Nat.pos_of_ne_zero (NeZero.ne T)) one_pos⟩ : Fin T) = last := Fin.ext (by simp only; omega)
  have hpne : paths ≠ [] := by obtain ⟨path, h, -⟩ := hne; exact List.ne_nil_of_mem h
  unfold progressionMetric
  simp only [hp, noPathPoints_false hne, sdcXyCurrent_eq hk ht, sdcValidCurrent_eq hk ht, hfirst, hlast, sdcXyLog_eq hk]
  cases hv : (s.simTrajectory k t).valid with
  | false =>
    simp only [Bool.false_eq_true, if_false]
    have htop : (minOverPaths paths fun _ _ => (⊤ : WithTop ℝ)) = ⊤ := by
      rcases listMin_cases (paths.flatMap fun path => path.points.map fun _ => (⊤ : WithTop ℝ)) with ⟨h1, -⟩ | ⟨d, -, h2, -⟩
      · exact h1
      · simp [List.mem_flatMap] at h2
    have hlen := argmin_lt (xs := paths.map fun path => listMin (path.points.map fun _ => (⊤ : WithTop ℝ)))
      (by simpa using hpne)
    rw [List.length_map] at hlen
    refine ⟨⟨0, false⟩, ?_, by simp, fun _ => rfl, by simp⟩
    rw [List.getElem?_eq_getElem hlen, htop]
  | true =>
    simp only [if_true, true_and]
    have hcomm : (fun (path : SdcPath ℝ) (p : PathPoint ℝ) => orInf (p.valid && path.onRoute)
        (pathDist ((s.simTrajectory k t).x, (s.simTrajectory k t).y) p)) =
        fun path p => orInf (path.onRoute && p.valid) (pathDist sdc p) := by
      funext path p; rw [Bool.and_comm]
    have hcomm' : (fun (path : SdcPath ℝ) => listMin (path.points.map fun p => orInf (p.valid && path.onRoute)
        (pathDist ((s.simTrajectory k t).x, (s.simTrajectory k t).y) p))) =
        fun path => minOverPaths [path] fun path p => orInf (path.onRoute && p.valid) (pathDist sdc p) := by
      funext path
      unfold minOverPaths
      simp only [List.flatMap_cons, List.flatMap_nil, List.append_nil]
      congr 2
      funext p; rw [Bool.and_comm]
    rw [hcomm, hcomm']
    set f := fun path => minOverPaths [path] fun path p => orInf (path.onRoute && p.valid) (pathDist sdc p) with hfdef
    have hmapne : paths.map f ≠ [] := by simpa using hpne
    obtain ⟨v, g1, g2, g3⟩ := argmin_spec hmapne
    set idx := argmin (paths.map f) with hidx
    rw [List.getElem?_map, Option.map_eq_some_iff] at g1
    obtain ⟨path, hpath, hpv⟩ := g1
    rw [hpath]
    simp only
    have hsub : ∀ path' ∈ paths, ∀ d, d ∈ distancesTo [path'] (fun p => p.onRoute = true) sdc →
        d ∈ distancesTo paths (fun p => p.onRoute = true) sdc := by
      rintro path' hmem d ⟨q, hq, hr⟩
      rw [List.mem_singleton] at hq
      subst hq
      exact ⟨q, hmem, hr⟩
    rcases minOverPaths_cases paths (fun p => p.onRoute) sdc with ⟨h1, h2⟩ | ⟨d, h1, h2⟩
    · refine ⟨⟨0, false⟩, ?_, ?_, fun _ => rfl, by simp⟩
      · rw [h1]; rfl
      · rw [h2]; simp
    · have hvd : v = (d : WithTop ℝ) := by
        obtain ⟨path0, hm0, hr0, p0, hp0, hv0, hd0⟩ := h2.1
        have hle0 := g2 (f path0) (List.mem_map.2 ⟨path0, hm0, rfl⟩)
        have hin0 : d ∈ distancesTo [path0] (fun p => p.onRoute = true) sdc :=
          ⟨path0, by simp, hr0, p0, hp0, hv0, hd0⟩
        have hf0 : f path0 ≤ (d : WithTop ℝ) := by
          rcases minOverPaths_cases [path0] (fun p => p.onRoute) sdc with ⟨-, h⟩ | ⟨d', h, h'⟩
          · rw [h] at hin0; exact absurd hin0 (Set.notMem_empty _)
          · simp only [hfdef]; rw [h]; exact WithTop.coe_le_coe.2 (h'.2 hin0)
        apply le_antisymm (le_trans hle0 hf0)
        rcases minOverPaths_cases [path] (fun p => p.onRoute) sdc with ⟨h, -⟩ | ⟨d', h, h'⟩
        · rw [← hpv]; simp only [hfdef]; rw [h]; exact le_top
        · rw [← hpv]; simp only [hfdef]; rw [h]
          exact WithTop.coe_le_coe.2 (h2.2 (hsub path (List.mem_of_getElem? hpath) _ h'.1))
      have hleast : IsLeast (distancesTo [path] (fun p => p.onRoute = true) sdc) d := by
        rcases minOverPaths_cases [path] (fun p => p.onRoute) sdc with ⟨h, -⟩ | ⟨d', h, h'⟩
        · simp only [hfdef] at hpv
          rw [h, hvd] at hpv
          exact absurd hpv WithTop.top_ne_coe
        · simp only [hfdef] at hpv
          rw [h, hvd] at hpv
          rwa [WithTop.coe_injective hpv] at h'
      have hon : path.onRoute = true := by
        obtain ⟨q, hq, hr, -⟩ := hleast.1
        rw [List.mem_singleton] at hq; subst hq; exact hr
      have hvalid : ∃ p ∈ path.points, p.valid = true := by
        obtain ⟨q, hq, hr, p, hp, hv, -⟩ := hleast.1
        rw [List.mem_singleton] at hq; subst hq; exact ⟨p, hp, hv⟩
      have hleast' : IsLeast (distancesTo [path] (fun _ => True) sdc) d := by
        have : distancesTo [path] (fun _ => True) sdc = distancesTo [path] (fun p => p.onRoute = true) sdc := by
          ext e
          simp [distancesTo, hon]
        rwa [this]
      have href : IsReferencePath paths sdc path := by
        refine ⟨idx, d, hpath, hon, h2, hleast', ?_⟩
        intro j path' hj hpath' hon' hd
        have hlt := g3 j hj (f path') (by rw [List.getElem?_map, hpath']; rfl)
        rw [hvd] at hlt
        have hin : d ∈ distancesTo [path'] (fun p => p.onRoute = true) sdc := by
          obtain ⟨q, hq, -, hr⟩ := hd
          rw [List.mem_singleton] at hq; subst hq
          exact ⟨q, by simp, hon', hr⟩
        rcases minOverPaths_cases [path'] (fun p => p.onRoute) sdc with ⟨-, h⟩ | ⟨d', h, h'⟩
        · rw [h] at hin; exact absurd hin (Set.notMem_empty _)
        · simp only [hfdef] at hlt
          rw [h] at hlt
          exact absurd (h'.2 hin) (not_le.2 (WithTop.coe_lt_coe.1 hlt))
      obtain ⟨pc, hc1, hc2⟩ := argmin_nearest path sdc hvalid
      obtain ⟨ps, hs1, hs2⟩ := argmin_nearest path start hvalid
      obtain ⟨pe, he1, he2⟩ := argmin_nearest path stop hvalid
      refine ⟨⟨if pe.arcLength = ps.arcLength then 1
          else (pc.arcLength - ps.arcLength) / (pe.arcLength - ps.arcLength), true⟩, ?_, ?_, by simp, fun _ =>
            ⟨path, pc, ps, pe, href, hc1, hs1, he1, rfl⟩⟩
      · rw [h1, ← hc2, ← hs2, ← he2]; rfl
      · simp only [true_iff]; exact ⟨d, h2.1⟩

/-- The nearest point is unique, so the value in `C39_progression_exact` is determined by the state. -/
theorem IsNearestOn.unique {path : SdcPath ℝ} {xy : ℝ × ℝ} {p q : PathPoint ℝ} (hp : IsNearestOn path xy p)
    (hq : IsNearestOn path xy q) : p = q := by
  obtain ⟨i, hi, hpv, h1⟩ := hp
  obtain ⟨j, hj, hqv, h2⟩ := hq
  rcases lt_trichotomy i j with h | h | h
  · exact absurd ((h2 i p hi hpv).2 h) (not_lt.2 (h1 j q hj hqv).1)
  · subst h; rw [hi] at hj; exact Option.some.inj hj
  · exact absurd ((h1 j q hj hqv).2 h) (not_lt.2 (h2 i p hi hpv).1)

/-- At the logged end the progress is 1; at the logged start it is 0 (or 1 if start and end have the same arc length). -/
theorem C39_start_and_end {s : SimState ℝ n T} {k : Fin n} (hk : IsTheSdc s k) {t : Fin T} (ht : (t : Int) = s.timestep)
    {paths : List (SdcPath ℝ)} (hp : s.sdcPaths = some paths) (hne : ∃ path ∈ paths, path.points ≠ [])
    {first last : Fin T} (hf : first.val = 0) (hl : last.val + 1 = T) {r : MetricResult} (hr : progressionMetric s = .ok r)
    (hv : r.valid = true) :
    ((s.simTrajectory k t).x = (s.logTrajectory k last).x → (s.simTrajectory k t).y = (s.logTrajectory k last).y → r.value = 1) ∧
    ((s.simTrajectory k t).x = (s.logTrajectory k first).x → (s.simTrajectory k t).y = (s.logTrajectory k first).y →
      r.value = 0 ∨ r.value = 1) := by
  obtain ⟨r', hr', -, -, h⟩ := C39_progression_exact hk ht hp hne hf hl
  rw [hr] at hr'
  obtain rfl := Except.ok.inj hr'
  obtain ⟨path, pc, ps, pe, -, hc, hs, he, hval⟩ := h hv
  constructor
  · intro hx hy
    rw [hx, hy] at hc
    obtain rfl := hc.unique he
    rw [hval]
    split
    · rfl
    · rename_i h'; exact div_self (sub_ne_zero.2 h')
  · intro hx hy
    rw [hx, hy] at hc
    obtain rfl := hc.unique hs
    rw [hval]
    split
    · right; rfl
    · left; simp

/-- The documented expectation: progress is non-negative. -/
def ProgressNonnegative (n T : Nat) [NeZero T] : Prop :=
  ∀ (s : SimState ℝ n T) (r : MetricResult), progressionMetric s = .ok r → 0 ≤ r.value

/-- A single on-route path along the x-axis with points at arc length 0, 10 and 20. -/
def exPath : SdcPath ℝ :=
  { points := [⟨0, 0, 0, 1, true, 0⟩, ⟨10, 0, 0, 1, true, 10⟩, ⟨20, 0, 0, 1, true, 20⟩], onRoute := true }

/-- The SDC is logged from x = 10 to x = 20 and simulated at `x`. -/
def exRoute (x : ℝ) : SimState ℝ 1 2 :=
  { simTrajectory := fun _ _ => parked x 0 true
    logTrajectory := fun _ t => parked (if t = 0 then 10 else 20) 0 true
    logTrafficLight := []
    objectMetadata := fun _ => ⟨0, 1, true, true, true, false, false⟩
    timestep := 0, sdcPaths := some [exPath], roadgraphPoints := none }

theorem exPath_nearest (j : Fin 3) : IsNearestOn exPath (10 * (j.val : ℝ), 0) ⟨10 * j.val, 0, 0, 1, true, 10 * j.val⟩ := by
  refine ⟨j.val, ?_, rfl, ?_⟩
  · fin_cases j <;> simp [exPath]; norm_num
  · intro i q hq _
    have h0 : dist2 (10 * (j.val : ℝ), 0) (10 * (j.val : ℝ), 0) = 0 := by simp [dist2]
    simp only [h0]
    refine ⟨Real.sqrt_nonneg _, fun hij => ?_⟩
    have hi : i < 3 := by omega
    have hq' : q.x = 10 * (i : ℝ) ∧ q.y = 0 := by
      interval_cases i <;> simp [exPath] at hq <;> subst hq <;> norm_num
    rw [hq'.1, hq'.2]
    unfold dist2
    apply Real.sqrt_pos.2
    have : (i : ℝ) < (j.val : ℝ) := by exact_mod_cast hij
    nlinarith

/-- The example meets the hypotheses of C37 - C39 and of `C39_start_and_end`. -/
theorem exRoute_hyps (x : ℝ) : IsTheSdc (exRoute x) 0 ∧ ((0 : Fin 2) : Int) = (exRoute x).timestep ∧
    (exRoute x).sdcPaths = some [exPath] ∧ (∃ path ∈ [exPath], path.points ≠ []) ∧
    (distancesTo [exPath] (fun p => p.onRoute = true) (x, 0)).Nonempty :=
  ⟨fun i => by simp [exRoute, Fin.eq_zero], rfl, rfl, ⟨exPath, by simp, by simp [exPath]⟩,
    ⟨_, exPath, by simp, rfl, ⟨0, 0, 0, 1, true, 0⟩, by simp [exPath], rfl, rfl⟩⟩

/-- Behind the logged start the progress of the example is -1. -/
theorem C39_violated : ¬ ProgressNonnegative 1 2 := by
  intro h
  obtain ⟨h1, h2, h3, h4, h5⟩ := exRoute_hyps 0
  obtain ⟨r, hr, hv, -, hval⟩ := C39_progression_exact h1 h2 h3 h4 (first := 0) (last := 1) rfl rfl
  obtain ⟨path, pc, ps, pe, ⟨k, d, hk, -⟩, hc, hs, he, hrv⟩ := hval (hv.2 ⟨rfl, h5⟩)
  have hpath : path = exPath := by
    have := List.mem_of_getElem? hk
    simpa using this
  subst hpath
  have e0 := exPath_nearest 0
  have e1 := exPath_nearest 1
  have e2 := exPath_nearest 2
  norm_num at e0 e1 e2
  have hc' := hc.unique (q := ⟨0, 0, 0, 1, true, 0⟩) (by simpa [exRoute, parked] using e0)
  have hs' := hs.unique (q := ⟨10, 0, 0, 1, true, 10⟩) (by simpa [exRoute, parked] using e1)
  have he' := he.unique (q := ⟨20, 0, 0, 1, true, 20⟩) (by simpa [exRoute, parked] using e2)
  subst hc' hs' he'
  have := h _ r hr
  rw [hrv] at this
  norm_num at this

/-- What holds: progress is non-negative when the SDC has not fallen behind its logged start (in arc length, and the log moves
forward along the path). Missing: states behind the logged start, see `C39_violated`. -/
theorem C39_nonnegative_partial {s : SimState ℝ n T} {k : Fin n} (hk : IsTheSdc s k) {t : Fin T} (ht : (t : Int) = s.timestep)
    {paths : List (SdcPath ℝ)} (hp : s.sdcPaths = some paths) (hne : ∃ path ∈ paths, path.points ≠ [])
    {first last : Fin T} (hf : first.val = 0) (hl : last.val + 1 = T) {r : MetricResult} (hr : progressionMetric s = .ok r)
    (hforward : ∀ path ∈ paths, ∀ pc ps pe, IsNearestOn path ((s.simTrajectory k t).x, (s.simTrajectory k t).y) pc →
      IsNearestOn path ((s.logTrajectory k first).x, (s.logTrajectory k first).y) ps →
      IsNearestOn path ((s.logTrajectory k last).x, (s.logTrajectory k last).y) pe →
      ps.arcLength ≤ pc.arcLength ∧ ps.arcLength ≤ pe.arcLength) : 0 ≤ r.value := by
  obtain ⟨r', hr', -, h0, h⟩ := C39_progression_exact hk ht hp hne hf hl
  rw [hr] at hr'
  obtain rfl := Except.ok.inj hr'
  cases hv : r.valid with
  | false => rw [h0 hv]
  | true =>
    obtain ⟨path, pc, ps, pe, ⟨j, d, hj, -⟩, hc, hs, he, hval⟩ := h hv
    obtain ⟨g1, g2⟩ := hforward path (List.mem_of_getElem? hj) pc ps pe hc hs he
    rw [hval]
    split
    · norm_num
    · exact div_nonneg (by linarith) (by linarith)

/-! ### C43: selecting the SDC -/

/-- With exactly one marked entry the selection is that entry, for numbers and for booleans. -/
theorem C43_select_by_onehot {n : Nat} {R : Type} [NonAssocSemiring R] (x : Fin n → R) (b sel : Fin n → Bool) (k : Fin n)
    (h : ∀ i, sel i = true ↔ i = k) : selectByOnehot x sel = x k ∧ selectByOnehotBool b sel = b k :=
  ⟨selectByOnehot_eq x sel k h, selectByOnehotBool_eq b sel k h⟩

/-- Nothing marked gives 0 and False; several marked give the sum and the disjunction. -/
theorem C43_select_general {n : Nat} {R : Type} [NonAssocSemiring R] (x : Fin n → R) (b sel : Fin n → Bool) :
    ((∀ i, sel i = false) → selectByOnehot x sel = 0 ∧ selectByOnehotBool b sel = false) ∧
    (selectByOnehotBool b sel = true ↔ ∃ i, b i = true ∧ sel i = true) := by
  refine ⟨fun h => ⟨?_, ?_⟩, selectByOnehotBool_eq_exists b sel⟩
  · unfold selectByOnehot; simp [h]
  · by_contra hc
    rw [Bool.not_eq_false, selectByOnehotBool_eq_exists] at hc
    obtain ⟨i, -, hi⟩ := hc
    rw [h i] at hi; cases hi

example : selectByOnehot (fun i : Fin 3 => (i.val + 5 : ℕ)) (fun i => decide (i = 2)) = 7 :=
  (C43_select_by_onehot _ (fun _ => true) _ 2 (by decide)).1

/-! ### C60: masked mean -/

/-- Every position of the row gets the mean of the valid entries, or the invalid value if there is none. -/
theorem C60_masked_mean {n : Nat} (x : Fin n → ℝ) (valid : Fin n → Bool) (inv : ℝ) (i : Fin n) :
    let S := Finset.univ.filter fun j => valid j = true
    (S.card ≠ 0 → maskedMean x valid inv i = (∑ j ∈ S, x j) / S.card) ∧ (S.card = 0 → maskedMean x valid inv i = inv) := by
  intro S
  have h1 : (∑ j, if valid j then (1 : ℝ) else 0) = S.card := by
    rw [Finset.card_eq_sum_ones, Nat.cast_sum, Finset.sum_filter]; simp
  have h2 : (∑ j, if valid j then x j else 0) = ∑ j ∈ S, x j := by
    rw [Finset.sum_filter]
  unfold maskedMean
  simp only [h1, h2]
  constructor
  · intro h; rw [if_neg (by exact_mod_cast h)]
  · intro h; rw [if_pos (by exact_mod_cast h)]

/-- A row whose valid entries all equal `c` gives `c` (if there is one). -/
theorem C60_constant_row {n : Nat} (x : Fin n → ℝ) (valid : Fin n → Bool) (inv c : ℝ) (i k : Fin n) (hk : valid k = true)
    (h : ∀ j, valid j = true → x j = c) : maskedMean x valid inv i = c := by
  have hcard : (Finset.univ.filter fun j => valid j = true).card ≠ 0 :=
    Finset.card_ne_zero.2 ⟨k, by simp [hk]⟩
  rw [(C60_masked_mean x valid inv i).1 hcard, Finset.sum_congr rfl (fun j hj => h j (Finset.mem_filter.1 hj).2),
    Finset.sum_const, nsmul_eq_mul]
  have : ((Finset.univ.filter fun j => valid j = true).card : ℝ) ≠ 0 := by exact_mod_cast hcard
  field_simp

/-- The mean lies between the bounds of the valid entries. -/
theorem C60_between {n : Nat} (x : Fin n → ℝ) (valid : Fin n → Bool) (inv lo hi : ℝ) (i k : Fin n) (hk : valid k = true)
    (h : ∀ j, valid j = true → lo ≤ x j ∧ x j ≤ hi) : lo ≤ maskedMean x valid inv i ∧ maskedMean x valid inv i ≤ hi := by
  have hne : (Finset.univ.filter fun j => valid j = true).card ≠ 0 :=
    Finset.card_ne_zero.2 ⟨k, by simp [hk]⟩
  have hpos : (0 : ℝ) < (Finset.univ.filter fun j => valid j = true).card := by
    exact_mod_cast Nat.pos_of_ne_zero hne
  rw [(C60_masked_mean x valid inv i).1 hne]
  constructor
  · rw [le_div_iff₀ hpos, mul_comm, ← nsmul_eq_mul]
    exact Finset.card_nsmul_le_sum _ _ _ (fun j hj => (h j (Finset.mem_filter.1 hj).2).1)
  · rw [div_le_iff₀ hpos, mul_comm, ← nsmul_eq_mul]
    exact Finset.sum_le_card_nsmul _ _ _ (fun j hj => (h j (Finset.mem_filter.1 hj).2).2)

example : maskedMean (fun i : Fin 2 => if i = 0 then 4 else 9) (fun i => decide (i = 0)) (-1) 1 = 4 :=
  C60_constant_row _ _ _ _ _ 0 (by decide) (by intro j hj; simp at hj; simp [hj])

end

end Waymax
