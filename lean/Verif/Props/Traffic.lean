import Verif.Spec.Traffic
import Verif.Props.Padding
import Verif.Props.IdmSpeed
/-
C187: adding other road users to a scenario. The simulation, the expert and all metrics but the overlap metric are those of the
scenario without them; the overlap metric can only go up; the IDM agent can become faster (real arithmetic for the metrics and
the agent; the transition functions over any scalars).
-/

namespace Waymax

section
variable {α D : Type} {n m T : Nat} {f : Fin n → Fin m}

/-- Padding is a special case of added objects. -/
theorem StoredAs.addedTo {s : SimState α n T} {s' : SimState α m T} (h : StoredAs f s s') : AddedTo f s s' :=
  ⟨h.separate, h.sim, h.log, h.objects, h.clock, h.lights, h.paths, h.roadgraph, fun j hj => (h.padObjects j hj).1⟩

theorem AddedTo.simFun {s : SimState α n T} {s' : SimState α m T} (h : AddedTo f s s') (i : Fin n) :
    s'.simTrajectory (f i) = s.simTrajectory i := funext (h.sim i)

theorem AddedTo.logFun {s : SimState α n T} {s' : SimState α m T} (h : AddedTo f s s') (i : Fin n) :
    s'.logTrajectory (f i) = s.logTrajectory i := funext (h.log i)

theorem AddedTo.cur [NeZero T] {s : SimState α n T} {s' : SimState α m T} (h : AddedTo f s s') (i : Fin n) :
    dynIndex (s'.simTrajectory (f i)) s'.timestep = dynIndex (s.simTrajectory i) s.timestep := by rw [h.simFun, h.clock]

/-! ### Transitions -/

section
variable [ScalarOps α]

/-- `reset` gives the old objects what it gives them without the added ones. -/
theorem C187_reset {cfg : EnvConfig} (hc : cfg.maxNumObjects = n) {s : SimState α n T} {s' : SimState α m T}
    (h : AddedTo f s s') : Both (AddedTo f) (reset cfg s) (reset (cfg.sized m) s') := by
  rw [reset_eq, reset_eq, if_pos hc, if_pos (show (cfg.sized m).maxNumObjects = m from rfl)]
  change Both _ (if cfg.initSteps ≤ T then _ else _) (if cfg.initSteps ≤ T then _ else _)
  split
  · refine .ok ⟨h.separate, ?_, h.log, h.objects, rfl, h.lights, h.paths, h.roadgraph, h.notSdc⟩
    intro i t
    simp only [h.log]
    rfl
  · exact .error

variable [NeZero T]

omit [ScalarOps α] in
theorem mask_added {cfg : EnvConfig} {s : SimState α n T} {s' : SimState α m T} (h : AddedTo f s s') :
    Both (SameEntries f) (envControlMask cfg s) (envControlMask (cfg.sized m) s') := by
  unfold envControlMask
  change Both _ (if cfg.controlledObject = .VALID ∧ cfg.allowNewObjectsAfterWarmup = false then _ else _)
    (if cfg.controlledObject = .VALID ∧ cfg.allowNewObjectsAfterWarmup = false then _ else
      getControlMask s'.objectMetadata cfg.controlledObject)
  split
  · refine .ok fun i => ?_
    simp only [h.sim]
    rfl
  · cases cfg.controlledObject
    · exact .ok fun i => by simp only [h.objects]
    · exact .ok fun i => by simp only [h.objects]
    · exact .ok fun i => by simp only [h.objects]
    · exact .error

/-- One `step`: whatever the added objects do, with whatever actions, even through other objects, the old ones move as without
them. -/
theorem C187_step {d : ∀ n, DynamicsModel α D n} (hd : OneByOne d) {cfg : EnvConfig} {s : SimState α n T}
    {s' : SimState α m T} (h : AddedTo f s s') {a : Fin n → Act D} {a' : Fin m → Act D} (ha : SameEntries f a a') :
    Both (AddedTo f) (step (d n) cfg s a) (step (d m) (cfg.sized m) s' a') := by
  unfold step
  refine (mask_added h).bind fun c c' hc => .ok ⟨h.separate, ?_, h.log, h.objects, ?_, h.lights, h.paths, h.roadgraph, h.notSdc⟩
  · intro i t
    refine congrFun (?_ : _ = _) t
    unfold DynamicsModel.forward
    simp only [h.clock]
    exact applyUpdate_same (hd.update f _ _ _ _ ha fun i => by rw [h.simFun]) h.simFun h.logFun hc _ _ _ i
  · simp only [h.clock]

theorem stepMany_added {d : ∀ n, DynamicsModel α D n} (hd : OneByOne d) {cfg : EnvConfig}
    {as : List (Fin n → Act D)} {as' : List (Fin m → Act D)} (ha : List.Forall₂ (SameEntries f) as as')
    {s : SimState α n T} {s' : SimState α m T} (h : AddedTo f s s') :
    Both (AddedTo f) (stepMany (d n) cfg s as) (stepMany (d m) (cfg.sized m) s' as') := by
  induction ha generalizing s s' with
  | nil => exact .ok h
  | cons ha _ ih => exact (C187_step hd h ha).bind fun _ _ h' => ih h'

/-- Whole episodes of any length. -/
theorem C187_episode {d : ∀ n, DynamicsModel α D n} (hd : OneByOne d) {cfg : EnvConfig} (hc : cfg.maxNumObjects = n)
    {as : List (Fin n → Act D)} {as' : List (Fin m → Act D)} (ha : List.Forall₂ (SameEntries f) as as')
    {s : SimState α n T} {s' : SimState α m T} (h : AddedTo f s s') :
    Both (AddedTo f) (reset cfg s >>= fun s0 => stepMany (d n) cfg s0 as)
      (reset (cfg.sized m) s' >>= fun s0 => stepMany (d m) (cfg.sized m) s0 as') :=
  (C187_reset hc h).bind fun _ _ h' => stepMany_added hd ha h'

end

/-- The expert's actions for the old objects. -/
theorem C187_expert [NeZero T] {d : ∀ n, DynamicsModel α D n} (hd : OneByOne d) {s : SimState α n T} {s' : SimState α m T}
    (h : AddedTo f s s') : SameEntries f (inferExpertAction s (d n)) (inferExpertAction s' (d m)) := by
  unfold inferExpertAction
  refine hd.inverse f _ _ _ _ _ (fun i => ?_) h.objects
  funext t
  simp only [h.simFun, h.logFun, h.clock]

end

/-! ### Metrics -/

section
variable {n m T : Nat} [NeZero T] {f : Fin n → Fin m} {s : SimState ℝ n T} {s' : SimState ℝ m T}

theorem sdcXyCurrent_added (h : AddedTo f s s') : sdcXyCurrent s' = sdcXyCurrent s := by
  unfold sdcXyCurrent
  rw [selectByOnehot_same h.separate (fun i => by rw [h.cur]) (fun i => by rw [h.objects]) h.notSdc,
    selectByOnehot_same h.separate (fun i => by rw [h.cur]) (fun i => by rw [h.objects]) h.notSdc]

omit [NeZero T] in
theorem sdcXyLog_added (h : AddedTo f s s') (t : Fin T) : sdcXyLog s' t = sdcXyLog s t := by
  unfold sdcXyLog
  rw [selectByOnehot_same h.separate (fun i => by rw [h.log]) (fun i => by rw [h.objects]) h.notSdc,
    selectByOnehot_same h.separate (fun i => by rw [h.log]) (fun i => by rw [h.objects]) h.notSdc]

theorem sdcValid_added (h : AddedTo f s s') : sdcValidCurrent s' = sdcValidCurrent s :=
  selectByOnehotBool_same h.separate (fun i => by rw [h.cur]) (fun i => by rw [h.objects]) h.notSdc

/-- Log divergence, kinematic infeasibility and leaving the road are judged object by object: the added objects change nothing for
the old ones. -/
theorem C187_object_metrics (h : AddedTo f s s') :
    SameEntries f (logDivergenceMetric s) (logDivergenceMetric s') ∧
    (∀ K : KimParams, SameEntries f (kinematicsInfeasibilityMetric K s) (kinematicsInfeasibilityMetric K s')) ∧
    Both (SameEntries f) (offroadMetric s) (offroadMetric s') := by
  refine ⟨fun i => ?_, fun K i => ?_, ?_⟩
  · unfold logDivergenceMetric
    simp only [h.simFun, h.logFun, h.clock]
  · unfold kinematicsInfeasibilityMetric
    simp only [h.simFun, h.clock]
  · unfold offroadMetric
    rw [h.roadgraph]
    match s.roadgraphPoints with
    | none => exact .error
    | some [] => exact .error
    | some (p :: rg) =>
      refine .ok fun i => ?_
      rw [h.cur]

/-- The metrics of the SDC's route are the same. -/
theorem C187_sdc_metrics (h : AddedTo f s s') :
    wrongWayMetric s' = wrongWayMetric s ∧ offRouteMetric s' = offRouteMetric s ∧
    progressionMetric s' = progressionMetric s := by
  refine ⟨?_, ?_, ?_⟩
  · unfold wrongWayMetric
    simp only [h.paths, sdcXyCurrent_added h]
  · unfold offRouteMetric
    simp only [h.paths, sdcXyCurrent_added h, sdcValid_added h]
  · unfold progressionMetric
    simp only [h.paths, sdcXyCurrent_added h, sdcValid_added h, sdcXyLog_added h]

/-- The overlap metric of an old object is 1 exactly if it was 1 before or the object overlaps one of the added objects. So it
never goes down, and the entry is valid as before. -/
theorem C187_overlap (h : AddedTo f s s') {t : Fin T} (ht : (t : Int) = s.timestep) (i : Fin n) :
    ((overlapMetric s' (f i)).value = 1 ↔ (overlapMetric s i).value = 1 ∨ HitsAdded f s' t i) ∧
    (overlapMetric s i).value ≤ (overlapMetric s' (f i)).value ∧
    (overlapMetric s' (f i)).valid = (overlapMetric s i).valid := by
  have ht' : (t : Int) = s'.timestep := by rw [h.clock]; exact ht
  obtain ⟨h1, h2, h3⟩ := C27_overlap_metric s ht i
  obtain ⟨h1', h2', h3'⟩ := C27_overlap_metric s' ht' (f i)
  dsimp only at h1 h1' h3 h3'
  have key : (overlapMetric s' (f i)).value = 1 ↔ (overlapMetric s i).value = 1 ∨ HitsAdded f s' t i := by
    rw [h1, h1']
    constructor
    · rintro ⟨j, hji, hv, hm⟩
      rcases real_or_padding f j with ⟨k, rfl⟩ | hj
      · refine .inl ⟨k, fun hk => hji (by rw [hk]), ?_, ?_⟩
        · rw [← h.sim]; exact hv
        · simp only [h.sim] at hm; exact hm
      · exact .inr ⟨j, hj, hv, by rw [Set.inter_comm]; exact hm⟩
    · rintro (⟨k, hki, hv, hm⟩ | ⟨j, hj, hv, hm⟩)
      · refine ⟨f k, fun hk => hki (h.separate hk), by rw [h.sim]; exact hv, ?_⟩
        simp only [h.sim]; exact hm
      · exact ⟨j, fun hji => hj i hji.symm, hv, by rw [Set.inter_comm]; exact hm⟩
  refine ⟨key, ?_, ?_⟩
  · rcases h2 with h0 | h0
    · rcases h2' with h0' | h0' <;> rw [h0, h0'] <;> norm_num
    · rw [key.2 (.inl h0), h0]
  · rw [h3, h3', h.sim]

/-! ### The IDM agent -/

omit [NeZero T] in
theorem meets_added (h : AddedTo f s s') (t : Fin T) (i k : Fin n) (w : Pt ℝ) :
    Meets (fun j => s'.simTrajectory j t) (f i) w (f k) ↔ Meets (fun j => s.simTrajectory j t) i w k := by
  unfold Meets
  simp only [h.sim, ne_eq, h.separate.eq_iff]

/-- A leader that is closer and no faster never makes the agent faster. A gap of exactly zero is treated as 10 cm. -/
theorem idmFollow_mono {P : IdmParams} (ha : 0 ≤ P.maxAccel) (hs0 : 0 ≤ P.minSpacing) {v u g u' g' : ℝ} (hv0 : 0 ≤ v)
    (huu : u ≤ u') (hg0 : 0 ≤ g) (hgg : g ≤ g') (hzero : g = 0 → g' = 0 ∨ 0.1 ≤ g') :
    idmFollow P v u g ≤ idmFollow P v u' g' := by
  unfold idmFollow
  have hgap : idmDesiredGap P v u' ≤ idmDesiredGap P v u := by
    unfold idmDesiredGap
    have hdiv : v * (v - u') / (2 * √(P.maxAccel * P.maxDecel)) ≤ v * (v - u) / (2 * √(P.maxAccel * P.maxDecel)) := by
      apply div_le_div_of_nonneg_right _ (by positivity)
      exact mul_le_mul_of_nonneg_left (by linarith) hv0
    have := max_le_max (le_refl (0 : ℝ)) (add_le_add_right hdiv (v * P.safeTimeHeadway))
    linarith
  have hgap0 : 0 ≤ idmDesiredGap P v u' := by
    unfold idmDesiredGap
    have := le_max_left (0 : ℝ) (v * P.safeTimeHeadway + v * (v - u') / (2 * √(P.maxAccel * P.maxDecel)))
    linarith
  have hden : 0 < (if g = 0 then (0.1 : ℝ) else g) := by
    split
    · norm_num
    · exact lt_of_le_of_ne hg0 (Ne.symm (by assumption))
  have hden' : (if g = 0 then (0.1 : ℝ) else g) ≤ (if g' = 0 then (0.1 : ℝ) else g') := by
    by_cases h0 : g = 0
    · rw [if_pos h0]
      rcases hzero h0 with h1 | h1
      · rw [if_pos h1]
      · rw [if_neg (by intro h2; rw [h2] at h1; norm_num at h1)]
        exact h1
    · have : 0 < g := lt_of_le_of_ne hg0 (Ne.symm h0)
      rw [if_neg h0, if_neg (by linarith)]
      exact hgg
  have hq : idmDesiredGap P v u' / (if g' = 0 then (0.1 : ℝ) else g') ≤ idmDesiredGap P v u / (if g = 0 then (0.1 : ℝ) else g) :=
    div_le_div₀ (hgap0.trans hgap) hgap hden hden'
  have hq0 : 0 ≤ idmDesiredGap P v u' / (if g' = 0 then (0.1 : ℝ) else g') := div_nonneg hgap0 (hden.trans_le hden').le
  have := mul_le_mul_of_nonneg_left (pow_le_pow_left₀ hq0 hq 2) ha
  linarith

/-- What does hold: added objects that are not met on the way change nothing; and the agent does not get faster if every added
object met on the way is no faster than every old object met on the way. That covers a road that was free before. The way points
are those of the scenario without the added objects, and are 0 m or at least 10 cm away (a gap of 0 is treated as 10 cm). -/
theorem C187_idm_partial {P : IdmParams} (ha : 0 ≤ P.maxAccel) (hs0 : 0 ≤ P.minSpacing) (h : AddedTo f s s') {t : Fin T}
    (ht : (t : Int) = s.timestep) {i : Fin n} (hv : (s.simTrajectory i t).valid = true) {ws : List (Pt ℝ)}
    (hws : idmLookahead P (s.logTrajectory i) (s.simTrajectory i t) = .ok ws) {r r' : ℝ × Bool}
    (hr : idmUpdateSpeed P s i = .ok r) (hr' : idmUpdateSpeed P s' (f i) = .ok r') :
    let met := fun (j : Fin m) => ∃ w ∈ ws, Meets (fun j => s'.simTrajectory j t) (f i) w j
    let d := fun w : Pt ℝ => √(((s.simTrajectory i t).x - w.x) ^ 2 + ((s.simTrajectory i t).y - w.y) ^ 2 +
      ((s.simTrajectory i t).z - w.z) ^ 2)
    ((∀ j, (∀ k, f k ≠ j) → ¬ met j) → r' = r) ∧
    ((∀ j, (∀ k, f k ≠ j) → met j → ∀ k, met (f k) → speedOf (s'.simTrajectory j t) ≤ speedOf (s.simTrajectory k t)) →
      (∀ w ∈ ws, d w = 0 ∨ 0.1 ≤ d w) → r'.1 ≤ r.1) := by
  intro met d
  have ht' : (t : Int) = s'.timestep := by rw [h.clock]; exact ht
  have hv' : (s'.simTrajectory (f i) t).valid = true := by rw [h.sim]; exact hv
  have hws' : idmLookahead P (s'.logTrajectory (f i)) (s'.simTrajectory (f i) t) = .ok ws := by rw [h.logFun, h.sim]; exact hws
  obtain ⟨ho, hfree, hlead⟩ := C48_leader ht hv hws hr
  obtain ⟨ho', hfree', hlead'⟩ := C48_leader ht' hv' hws' hr'
  simp only [h.sim] at hfree' hlead'
  have hold : ∀ w k, Meets (fun j => s'.simTrajectory j t) (f i) w (f k) ↔ Meets (fun j => s.simTrajectory j t) i w k :=
    fun w k => meets_added h t i k w
  refine ⟨fun hnone => ?_, fun hslow hgrid => ?_⟩
  · -- nobody new is met
    have hiff : ∀ w ∈ ws, ∀ j, Meets (fun j => s'.simTrajectory j t) (f i) w j →
        ∃ k, f k = j ∧ Meets (fun j => s.simTrajectory j t) i w k := by
      intro w hw j hj
      rcases real_or_padding f j with ⟨k, rfl⟩ | hp
      · exact ⟨k, rfl, (hold w k).1 hj⟩
      · exact absurd ⟨w, hw, hj⟩ (hnone j hp)
    have hsub : ∀ l : List (Pt ℝ), (∀ w ∈ l, w ∈ ws) → (FreeRoad (fun j => s'.simTrajectory j t) (f i) l ↔
        FreeRoad (fun j => s.simTrajectory j t) i l) := by
      intro l hl
      constructor
      · intro hf w hw k hk
        exact hf w hw (f k) ((hold w k).2 hk)
      · intro hf w hw j hj
        obtain ⟨k, -, hk⟩ := hiff w (hl w hw) j hj
        exact hf w hw k hk
    refine Prod.ext ?_ (by rw [ho, ho'])
    by_cases hf : FreeRoad (fun j => s.simTrajectory j t) i ws
    · rw [hfree hf, hfree' ((hsub ws fun _ hw => hw).2 hf)]
    · obtain ⟨u, g, ⟨pre, w, post, hsplit, hpre, ⟨j, hj, rfl⟩, hmin⟩, ⟨⟨wg, hwg, ⟨jg, hjg⟩, rfl⟩, hgmin⟩, he⟩ := hlead hf
      obtain ⟨u', g', hu', hg', he'⟩ := hlead' (fun hf' => hf ((hsub ws fun _ hw => hw).1 hf'))
      have hw : w ∈ ws := by rw [hsplit]; simp
      have hu : LeadSpeed (fun j => s'.simTrajectory j t) (f i) ws (speedOf (s.simTrajectory j t)) := by
        refine ⟨pre, w, post, hsplit, (hsub pre fun x hx => by rw [hsplit]; simp [hx]).2 hpre,
          ⟨f j, (hold w j).2 hj, by simp only [h.sim]⟩, ?_⟩
        intro j' hj'
        obtain ⟨k, rfl, hk⟩ := hiff w hw j' hj'
        simp only [h.sim]
        exact hmin k hk
      have hg : LeadGap (fun j => s'.simTrajectory j t) (f i) ws (d wg) := by
        refine ⟨⟨wg, hwg, ⟨f jg, (hold wg jg).2 hjg⟩, by simp only [h.sim]; rfl⟩, ?_⟩
        rintro x hx ⟨j', hj'⟩
        obtain ⟨k, rfl, hk⟩ := hiff x hx j' hj'
        simp only [h.sim]
        exact hgmin x hx ⟨k, hk⟩
      rw [he, he', hu'.unique hu, hg'.unique hg]
  · by_cases hf : FreeRoad (fun j => s.simTrajectory j t) i ws
    · rw [hfree hf]
      have := le_free ha ht' hv' hr'
      rw [h.sim] at this
      exact this
    · obtain ⟨u, g, hu, hg, he⟩ := hlead hf
      have hf' : ¬ FreeRoad (fun j => s'.simTrajectory j t) (f i) ws := fun hf' =>
        hf fun w hw k hk => hf' w hw (f k) ((hold w k).2 hk)
      obtain ⟨u', g', hu', hg', he'⟩ := hlead' hf'
      rw [he, he']
      apply speedAfter_mono
      obtain ⟨pre, w, post, hsplit, hpre, ⟨j, hj, hju⟩, hmin⟩ := hu
      obtain ⟨pre', w', post', hsplit', hpre', ⟨j', hj', hju'⟩, hmin'⟩ := hu'
      have hw : w ∈ ws := by rw [hsplit]; simp
      have hw' : w' ∈ ws := by rw [hsplit']; simp
      refine idmFollow_mono ha hs0 (speedOf_nonneg _) ?_ hg'.nonneg ?_ ?_
      · -- the new leader is no faster
        rcases real_or_padding f j' with ⟨k, rfl⟩ | hp
        · -- the leader is an old object: it is met first there, so the way point is the old one
          have hk : Meets (fun j => s.simTrajectory j t) i w' k := (hold w' k).1 hj'
          have hlen : pre'.length ≤ pre.length := by
            by_contra hlt
            have : w ∈ pre' := by
              have h1 : ws[pre.length]? = some w := by rw [hsplit]; simp
              rw [hsplit', List.getElem?_append_left (by omega)] at h1
              exact List.mem_of_getElem? h1
            exact hpre' w this (f j) ((hold w j).2 hj)
          have hlen' : pre.length ≤ pre'.length := by
            by_contra hlt
            have : w' ∈ pre := by
              have h1 : ws[pre'.length]? = some w' := by rw [hsplit']; simp
              rw [hsplit, List.getElem?_append_left (by omega)] at h1
              exact List.mem_of_getElem? h1
            exact hpre w' this k hk
          have hww : w = w' := by
            have h1 : ws[pre.length]? = some w := by rw [hsplit]; simp
            have h2 : ws[pre'.length]? = some w' := by rw [hsplit']; simp
            rw [le_antisymm hlen' hlen] at h1
            exact Option.some.inj (h1.symm.trans h2)
          have := hmin' (f j) ((hold w' j).2 (hww ▸ hj))
          simp only [h.sim] at this
          rw [hju]
          exact this
        · rw [hju, hju']
          exact hslow j' hp ⟨w', hw', hj'⟩ j ⟨w, hw, (hold w j).2 hj⟩
      · -- the new gap is no larger
        obtain ⟨⟨x, hx, ⟨k, hk⟩, hgx⟩, -⟩ := hg
        have := hg'.2 x hx ⟨f k, (hold x k).2 hk⟩
        simp only [h.sim] at this
        rw [hgx]
        exact this
      · intro _
        obtain ⟨⟨x, hx, -, hgx⟩, -⟩ := hg
        rw [hgx]
        exact hgrid x hx

end

/-! ### The claim about the agent is violated -/

/-- A car at 3 m/s behind a stopped car, whose rear is 8.5 m ahead of its front. -/
noncomputable def queueScen : SimState ℝ 2 1 :=
  { simTrajectory := fun i _ => if i = 0 then ptAt 0 0 0 3 0 else ptAt 12.5 0 0 0 0
    logTrajectory := fun i _ => if i = 0 then ptAt 0 0 0 3 0 else ptAt 12.5 0 0 0 0
    logTrafficLight := [], objectMetadata := fun i => ⟨i.val, 1, decide (i = 0), true, true, false, false⟩
    timestep := 0, sdcPaths := none, roadgraphPoints := none }

/-- The same with a car at 20 m/s in between. -/
noncomputable def cutInScen : SimState ℝ 3 1 :=
  { simTrajectory := fun i _ => if i = 0 then ptAt 0 0 0 3 0 else if i = 1 then ptAt 12.5 0 0 0 0 else ptAt 8.25 0 0 20 0
    logTrajectory := fun i _ => if i = 0 then ptAt 0 0 0 3 0 else if i = 1 then ptAt 12.5 0 0 0 0 else ptAt 8.25 0 0 20 0
    logTrafficLight := [], objectMetadata := fun i => ⟨i.val, 1, decide (i = 0), true, true, false, false⟩
    timestep := 0, sdcPaths := none, roadgraphPoints := none }

theorem cutIn_added : AddedTo (Fin.castSucc : Fin 2 → Fin 3) queueScen cutInScen where
  separate := Fin.castSucc_injective 2
  sim := fun i t => by fin_cases i <;> rfl
  log := fun i t => by fin_cases i <;> rfl
  objects := fun i => by fin_cases i <;> rfl
  clock := rfl
  lights := rfl
  paths := rfl
  roadgraph := rfl
  notSdc := fun j hj => by
    fin_cases j
    · exact absurd rfl (hj 0)
    · exact absurd rfl (hj 1)
    · rfl

/-- A car like the agent's, `x` metres straight ahead, is met at the point `k` metres ahead exactly if `|k - x| < 4`. -/
theorem ahead_meets {n : Nat} {cur : Fin n → Pt ℝ} {i j : Fin n} (hij : j ≠ i) {v u x : ℝ} (hi : cur i = ptAt 0 0 0 v 0)
    (hj : cur j = ptAt x 0 0 u 0) (k : ℕ) : Meets cur i (aheadOf (cur i)
    (({} : IdmParams).additionalLookaheadDistance * k / ({} : IdmParams).additionalLookaheadPoints)) j ↔ |(k : ℝ) - x| < 4 := by
  have hk : ({} : IdmParams).additionalLookaheadDistance * (k : ℝ) / ({} : IdmParams).additionalLookaheadPoints = k := by
    norm_num
  rw [hk, hi]
  constructor
  · rintro ⟨-, -, -, p, ⟨a, b, ha, hb, hp⟩, ⟨a', b', ha', hb', hp'⟩⟩
    rw [hj] at ha' hb' hp'
    have h := congrArg Prod.fst (hp.symm.trans hp')
    simp only [ptAt, pointAt, heading, leftOf, aheadOf, Real.cos_zero, Real.sin_zero] at h ha ha'
    norm_num at h ha ha'
    rw [abs_lt] at ha ha' ⊢
    constructor <;> linarith [ha.1, ha.2, ha'.1, ha'.2]
  · intro h
    rw [abs_lt] at h
    refine ⟨hij, rfl, by rw [hj]; rfl, ((k + x) / 2, 0), ⟨(x - k) / 2, 0, ?_, ?_, ?_⟩, ?_⟩
    · simp [ptAt, aheadOf]
      rw [abs_lt]
      constructor <;> linarith [h.1, h.2]
    · simp [ptAt, aheadOf]
    · simp [ptAt, aheadOf, pointAt, heading, leftOf]
      ring
    · rw [hj]
      refine ⟨(k - x) / 2, 0, ?_, ?_, ?_⟩
      · simp [ptAt]
        rw [abs_lt]
        constructor <;> linarith [h.1, h.2]
      · simp [ptAt]
      · simp [ptAt, pointAt, heading, leftOf]
        ring

theorem speedOf_ptAt {x v : ℝ} (hv : 0 ≤ v) : speedOf (ptAt x 0 0 v 0) = v := by
  simp [speedOf, norm2, ptAt, Real.sqrt_sq hv]

theorem queue_speed : idmUpdateSpeed {} queueScen 0 = .ok (speedAfter 3 (idmFollow {} 3 0 9), true) := by
  obtain ⟨speed, h1, -, h3⟩ := C48_default (P := {}) rfl (by norm_num) (by norm_num) (s := queueScen) (i := 0) (t := 0) rfl rfl
  have hm := fun k => ahead_meets (cur := fun j => queueScen.simTrajectory j 0) (i := 0) (j := 1) (by decide) (v := 3) (u := 0)
    (x := 12.5) rfl rfl k
  obtain ⟨j, hj, -, hs⟩ := h3 9 (by norm_num)
    (by
      intro k' hk' j hj
      have h1 : j = 1 := by
        have := hj.1
        fin_cases j
        · exact absurd rfl this
        · rfl
      subst h1
      have h2 := (hm k').1 hj
      rw [abs_lt] at h2
      have : (k' : ℝ) ≤ 8 := by exact_mod_cast (by omega : k' ≤ 8)
      linarith [h2.1])
    ⟨1, (hm 9).2 (by norm_num [abs_lt])⟩
  have hj1 : j = 1 := by
    have := hj.1
    fin_cases j
    · exact absurd rfl this
    · rfl
  subst hj1
  rw [h1, hs]
  have hv : speedOf (queueScen.simTrajectory 0 0) = 3 := speedOf_ptAt (by norm_num)
  have hu : speedOf (queueScen.simTrajectory 1 0) = 0 := speedOf_ptAt le_rfl
  rw [hv, hu]
  norm_num

theorem cutIn_speed : idmUpdateSpeed {} cutInScen 0 = .ok (speedAfter 3 (idmFollow {} 3 20 5), true) := by
  obtain ⟨speed, h1, -, h3⟩ := C48_default (P := {}) rfl (by norm_num) (by norm_num) (s := cutInScen) (i := 0) (t := 0) rfl rfl
  have hm1 := fun k => ahead_meets (cur := fun j => cutInScen.simTrajectory j 0) (i := 0) (j := 1) (by decide) (v := 3) (u := 0)
    (x := 12.5) rfl rfl k
  have hm2 := fun k => ahead_meets (cur := fun j => cutInScen.simTrajectory j 0) (i := 0) (j := 2) (by decide) (v := 3) (u := 20)
    (x := 8.25) rfl rfl k
  obtain ⟨j, hj, -, hs⟩ := h3 5 (by norm_num)
    (by
      intro k' hk' j hj
      have : (k' : ℝ) ≤ 4 := by exact_mod_cast (by omega : k' ≤ 4)
      fin_cases j
      · exact absurd rfl hj.1
      · have h2 := (hm1 k').1 hj
        rw [abs_lt] at h2
        linarith [h2.1]
      · have h2 := (hm2 k').1 hj
        rw [abs_lt] at h2
        linarith [h2.1])
    ⟨2, (hm2 5).2 (by norm_num [abs_lt])⟩
  have hj2 : j = 2 := by
    fin_cases j
    · exact absurd rfl hj.1
    · have h2 := (hm1 5).1 hj
      rw [abs_lt] at h2
      norm_num at h2
    · rfl
  subst hj2
  rw [h1, hs]
  have hv : speedOf (cutInScen.simTrajectory 0 0) = 3 := speedOf_ptAt (by norm_num)
  have hu : speedOf (cutInScen.simTrajectory 2 0) = 20 := speedOf_ptAt (by norm_num)
  rw [hv, hu]
  norm_num

/-- Behind the stopped car the agent gains less than 0.05 m/s ... -/
theorem queue_slow : speedAfter 3 (idmFollow {} 3 0 9) < 3.05 := by
  unfold speedAfter idmFollow idmFree
  have hgap : 8 ≤ idmDesiredGap {} 3 0 := by
    unfold idmDesiredGap
    have h0 : (0 : ℝ) ≤ 3 * (3 - 0) / (2 * √(2 * 4)) := by positivity
    have := le_max_right (0 : ℝ) (3 * 2 + 3 * (3 - 0) / (2 * √(2 * 4)))
    simp only
    linarith
  have hp : (0 : ℝ) ≤ (3 / 30 : ℝ) ^ (4 : ℝ) := by positivity
  rw [if_neg (by norm_num)]
  simp only
  apply max_lt (by norm_num)
  have hsq : (64 : ℝ) / 81 ≤ (idmDesiredGap {} 3 0 / 9) ^ 2 := by
    have : (8 : ℝ) / 9 ≤ idmDesiredGap {} 3 0 / 9 := by linarith
    nlinarith
  linarith

/-- ... and behind the added fast car more than 0.15 m/s. -/
theorem cutIn_fast : 3.15 < speedAfter 3 (idmFollow {} 3 20 5) := by
  unfold speedAfter idmFollow idmFree
  have hgap : idmDesiredGap {} 3 20 = 2 := by
    unfold idmDesiredGap
    simp only
    rw [max_eq_left]
    · norm_num
    · have hr : √(2 * 4 : ℝ) ≤ 3 := Real.sqrt_le_iff.2 ⟨by norm_num, by norm_num⟩
      have hr0 : 0 < √(2 * 4 : ℝ) := Real.sqrt_pos.2 (by norm_num)
      have : (3 : ℝ) * (3 - 20) / (2 * √(2 * 4)) ≤ -6 := by
        rw [div_le_iff₀ (by positivity)]
        nlinarith
      linarith
  have hp : ((3 : ℝ) / 30) ^ (4 : ℝ) = 1 / 10000 := by
    rw [show (4 : ℝ) = ((4 : ℕ) : ℝ) by norm_num, Real.rpow_natCast]
    norm_num
  rw [if_neg (by norm_num), hgap]
  simp only
  rw [hp]
  apply lt_max_of_lt_right
  norm_num

/-- The code violates the claim with the default setting: a fast car that cuts in between makes the agent accelerate towards the
stopped car, which it no longer takes into account. -/
theorem C187_violated : ¬ TrafficSlows {} 2 3 1 := by
  intro h
  have h1 := h Fin.castSucc queueScen cutInScen 0 cutIn_added rfl 0 rfl _ _ queue_speed cutIn_speed
  have h2 := queue_slow
  have h3 := cutIn_fast
  simp only at h1
  linarith

/-! ### The hypotheses are met -/

/-- The overlap metric: adding a car on top of the SDC. -/
example : AddedTo (fun _ : Fin 1 => (0 : Fin 2))
    { exPair with simTrajectory := fun _ => exPair.simTrajectory 0, logTrajectory := fun _ => exPair.logTrajectory 0
                  objectMetadata := fun _ => exPair.objectMetadata 0 } exPair ∧
    HitsAdded (fun _ : Fin 1 => (0 : Fin 2)) exPair 0 0 := by
  refine ⟨⟨fun a b _ => Subsingleton.elim a b, fun _ _ => rfl, fun _ _ => rfl, fun _ => rfl, rfl, rfl, rfl, rfl, ?_⟩, ?_⟩
  · intro j hj
    fin_cases j
    · exact absurd rfl (hj 0)
    · rfl
  · refine ⟨1, by decide, rfl, (1.5, 0), ⟨-1.5, 0, ?_, ?_, ?_⟩, ⟨1.5, 0, ?_, ?_, ?_⟩⟩ <;>
      norm_num [exPair, parked, pointAt, heading, leftOf, abs_of_nonneg, abs_lt]

/-- The way points of the default setting are 0 m or at least 10 cm away. -/
example (p : Pt ℝ) : ∀ w ∈ (List.range 11).map fun k : Nat => aheadOf p (10 * k / 10),
    √((p.x - w.x) ^ 2 + (p.y - w.y) ^ 2 + (p.z - w.z) ^ 2) = 0 ∨ 0.1 ≤ √((p.x - w.x) ^ 2 + (p.y - w.y) ^ 2 + (p.z - w.z) ^ 2) := by
  intro w hw
  obtain ⟨k, -, rfl⟩ := List.mem_map.1 hw
  rw [aheadOf_gap p (by positivity)]
  rcases Nat.eq_zero_or_pos k with rfl | hk
  · left; norm_num
  · right
    have : (1 : ℝ) ≤ k := by exact_mod_cast hk
    linarith

end Waymax
