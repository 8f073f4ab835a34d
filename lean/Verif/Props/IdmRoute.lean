import Verif.Spec.IdmRoute
import Verif.Props.IdmSpeed
import Verif.Props.Following
/-
C162: which objects an IDM agent brakes for (real arithmetic).
-/

namespace Waymax

open Real

section
variable {n T : Nat} [NeZero T]

theorem nearestInSpace_index (log : Fin T → Pt ℝ) (p : Pt ℝ) (hvalid : ∃ t, (log t).valid = true) :
    ∃ t : Fin T, argminFin (fun t => orInf (log t).valid (dist3 p (log t))) = t.val ∧ NearestInSpace log p t := by
  obtain ⟨t, h1, h2, h3⟩ := argminFin_spec fun t => orInf (log t).valid (dist3 p (log t))
  obtain ⟨v, hv⟩ := hvalid
  have htv : (log t).valid = true := by
    by_contra hc
    have := h2 v
    simp only [orInf, hv, if_true, hc] at this
    exact absurd (this.trans_lt (WithTop.coe_lt_top _)) (lt_irrefl _)
  refine ⟨t, h1, htv, fun u hu => ?_, fun u hu huv => ?_⟩
  · have := h2 u
    simp only [orInf, htv, hu, if_true, WithTop.coe_le_coe] at this
    exact this
  · have := h3 u hu
    simp only [orInf, htv, huv, if_true, WithTop.coe_lt_coe] at this
    exact this

theorem NearestInSpace.unique {log : Fin T → Pt ℝ} {p : Pt ℝ} {t u : Fin T} (ht : NearestInSpace log p t)
    (hu : NearestInSpace log p u) : t = u := by
  rcases lt_trichotomy t u with h | h | h
  · exact absurd (ht.2.1 u hu.1) (not_le.2 (hu.2.2 t h ht.1))
  · exact h
  · exact absurd (hu.2.1 t ht.1) (not_le.2 (ht.2.2 u h hu.1))

/-- The window of the log along which the agent looks when it follows the log. -/
theorem lookahead_log {P : IdmParams} (hP : P.lookaheadFromCurrentPosition = false) {log : Fin T → Pt ℝ} {p : Pt ℝ}
    {ws : List (Pt ℝ)} (h : idmLookahead P log p = .ok ws) {t : Fin T} (ht : NearestInSpace log p t) :
    P.maxLookahead ≤ T ∧
    (∀ u : Fin T, min t.val (T - P.maxLookahead) ≤ u.val → u.val < min t.val (T - P.maxLookahead) + P.maxLookahead → log u ∈ ws) ∧
    (P.additionalLookaheadPoints = 0 → ∀ w ∈ ws, ∃ u : Fin T, min t.val (T - P.maxLookahead) ≤ u.val ∧
      u.val < min t.val (T - P.maxLookahead) + P.maxLookahead ∧ w = log u) := by
  obtain ⟨t', h1, ht'⟩ := nearestInSpace_index log p ⟨t, ht.1⟩
  obtain rfl := ht.unique ht'
  unfold idmLookahead findReference at h
  simp only [hP, Bool.false_eq_true, if_false] at h
  by_cases hT : P.maxLookahead ≤ T
  swap
  · simp only [hT, dite_false, bind, Except.bind] at h
    cases h
  simp only [hT, dite_true, bind, Except.bind, h1] at h
  have hstart : startIdx T P.maxLookahead (t.val : Int) = min t.val (T - P.maxLookahead) := by
    unfold startIdx
    simp only
    split <;> omega
  set base := List.ofFn (dynSlice log (t.val : Int) P.maxLookahead hT) with hbase
  have hmem : ∀ u : Fin T, min t.val (T - P.maxLookahead) ≤ u.val →
      u.val < min t.val (T - P.maxLookahead) + P.maxLookahead → log u ∈ base := by
    intro u h1 h2
    rw [hbase, List.mem_ofFn]
    refine ⟨⟨u.val - min t.val (T - P.maxLookahead), by omega⟩, ?_⟩
    unfold dynSlice
    congr 1
    apply Fin.ext
    simp only [hstart]
    omega
  refine ⟨hT, fun u hu1 hu2 => ?_, fun hN w hw => ?_⟩
  · split at h
    · unfold addHeadwayWaypoints at h
      split at h
      · cases h
      · obtain rfl := Except.ok.inj h
        exact List.mem_append_left _ (hmem u hu1 hu2)
    · obtain rfl := Except.ok.inj h
      exact hmem u hu1 hu2
  · rw [if_neg (by omega)] at h
    obtain rfl := Except.ok.inj h
    rw [hbase, List.mem_ofFn] at hw
    obtain ⟨k, hk⟩ := hw
    refine ⟨⟨min t.val (T - P.maxLookahead) + k.val, by have := k.isLt; omega⟩, by simp, by simp, ?_⟩
    rw [← hk]
    unfold dynSlice
    congr 1
    apply Fin.ext
    simp only [hstart]

/-- Meeting anybody along the way points makes the agent slower than on an empty road. -/
theorem slower {P : IdmParams} (ha : 0 < P.maxAccel) (hs0 : 0 < P.minSpacing) {s : SimState ℝ n T} {i : Fin n} {t : Fin T}
    (ht : (t : Int) = s.timestep) (hv : (s.simTrajectory i t).valid = true) {ws : List (Pt ℝ)}
    (hws : idmLookahead P (s.logTrajectory i) (s.simTrajectory i t) = .ok ws)
    (hnf : ¬ FreeRoad (fun j => s.simTrajectory j t) i ws) (hpos : 0 < freeSpeed P (s.simTrajectory i t)) {r : ℝ × Bool}
    (h : idmUpdateSpeed P s i = .ok r) : r.1 < freeSpeed P (s.simTrajectory i t) := by
  obtain ⟨u, g, hu, hg, he⟩ := (C48_leader ht hv hws h).2.2 hnf
  rw [he]
  unfold freeSpeed at hpos ⊢
  set v := speedOf (s.simTrajectory i t)
  have hg0 := hg.nonneg
  have hden : 0 < (if g = 0 then (0.1 : ℝ) else g) := by
    split
    · norm_num
    · exact lt_of_le_of_ne hg0 (Ne.symm (by assumption))
  have hgap : 0 < idmDesiredGap P v u := by
    unfold idmDesiredGap
    have := le_max_left (0 : ℝ) (v * P.safeTimeHeadway + v * (v - u) / (2 * √(P.maxAccel * P.maxDecel)))
    linarith
  have hlt : idmFollow P v u g < idmFree P v := by
    unfold idmFollow
    have : 0 < P.maxAccel * (idmDesiredGap P v u / (if g = 0 then (0.1 : ℝ) else g)) ^ 2 := by positivity
    linarith
  have hfree : 0 < v + 0.1 * idmFree P v := by
    unfold speedAfter at hpos
    rcases lt_max_iff.1 hpos with h | h
    · exact absurd h (lt_irrefl _)
    · exact h
  unfold speedAfter
  rw [max_eq_right hfree.le]
  exact max_lt hfree (by linarith)

/-- The part that holds: told to look along the log (`lookahead_from_current_position=False`), the agent slows down for every
object on the next stretch of its route. -/
theorem C162_looks_along_log_partial {P : IdmParams} (hP : P.lookaheadFromCurrentPosition = false) (ha : 0 < P.maxAccel)
    (hs0 : 0 < P.minSpacing) : ReactsToRoute n T P := by
  rintro s i t ht hv ⟨w, ⟨t', u, hnear, h1, h2, rfl⟩, j, hj⟩ hpos r h
  obtain ⟨ws, hws⟩ := idmUpdateSpeed_lookahead ht h
  obtain ⟨hT, hmem, -⟩ := lookahead_log hP hws hnear
  refine slower ha hs0 ht hv hws (fun hf => ?_) hpos h
  exact hf _ (hmem u (by omega) (by have := u.isLt; omega)) j hj

/-- It also ignores everything else as long as the stretch ends within the log and no points are added beyond it. -/
theorem C162_ignores_others_partial {P : IdmParams} (hP : P.lookaheadFromCurrentPosition = false)
    (hN : P.additionalLookaheadPoints = 0) {s : SimState ℝ n T} {i : Fin n} {t : Fin T} (ht : (t : Int) = s.timestep)
    (hv : (s.simTrajectory i t).valid = true) {t' : Fin T} (hnear : NearestInSpace (s.logTrajectory i) (s.simTrajectory i t) t')
    (hend : t'.val + P.maxLookahead ≤ T)
    (hclear : ¬ RouteBlocked P (s.logTrajectory i) (fun j => s.simTrajectory j t) i) {r : ℝ × Bool}
    (h : idmUpdateSpeed P s i = .ok r) : r.1 = freeSpeed P (s.simTrajectory i t) := by
  obtain ⟨ws, hws⟩ := idmUpdateSpeed_lookahead ht h
  obtain ⟨hT, -, hmem⟩ := lookahead_log hP hws hnear
  refine (C48_leader ht hv hws h).2.1 fun w hw j hj => ?_
  obtain ⟨u, h1, h2, rfl⟩ := hmem hN w hw
  exact hclear ⟨_, ⟨t', u, hnear, by omega, by omega, rfl⟩, j, hj⟩

/-- The default setting never looks at the route: the new speed depends on the current states of the objects only. Neither the log
nor its length nor the step count have an influence. -/
theorem C162_default_ignores_route {T' : Nat} [NeZero T'] {P : IdmParams} (hP : P.lookaheadFromCurrentPosition = true)
    {s : SimState ℝ n T} {s' : SimState ℝ n T'} {t : Fin T} {t' : Fin T'} (ht : (t : Int) = s.timestep) (ht' : (t' : Int) = s'.timestep)
    (hcur : ∀ j, s'.simTrajectory j t' = s.simTrajectory j t) (i : Fin n) : idmUpdateSpeed P s' i = idmUpdateSpeed P s i := by
  have hc : (fun j => s'.simTrajectory j t') = fun j => s.simTrajectory j t := funext hcur
  unfold idmUpdateSpeed idmAccel
  simp only [dynIndex_of_eq _ ht, dynIndex_of_eq _ ht', hcur]
  unfold idmLookahead
  simp only [hP, if_true]

end

/-! ### Cases -/

/-- A car at 10 m/s whose route turns left, and a parked car on that route, 6 m ahead and 6 m to the left. -/
noncomputable def turnScen : SimState ℝ 2 11 :=
  { simTrajectory := fun i _ => if i = 0 then ptAt 0 0 0 10 0 else ptAt 6 6 0 0 0
    logTrajectory := fun i t => if i = 0 then ptAt (3 * t.val) (3 * t.val) 0 10 0 else ptAt 6 6 0 0 0
    logTrafficLight := [], objectMetadata := fun i => ⟨i.val, 1, decide (i = 0), true, true, false, false⟩
    timestep := 0, sdcPaths := none, roadgraphPoints := none }

/-- The same route, but the parked car is straight ahead and off the route. -/
noncomputable def phantomScen : SimState ℝ 2 11 :=
  { turnScen with simTrajectory := fun i _ => jamScen.simTrajectory i 0 }

/-- A car driving straight on, at the last step of its log, and a car of the same speed 21 m behind it. -/
noncomputable def tailScen : SimState ℝ 2 11 :=
  { simTrajectory := fun i _ => if i = 0 then ptAt 30 0 0 10 0 else ptAt 9 0 0 10 0
    logTrajectory := fun i t => if i = 0 then ptAt (3 * t.val) 0 0 10 0 else ptAt 9 0 0 10 0
    logTrafficLight := [], objectMetadata := fun i => ⟨i.val, 1, decide (i = 0), true, true, false, false⟩
    timestep := 10, sdcPaths := none, roadgraphPoints := none }

/-- Boxes of 4 m by 2 m heading along the x axis overlap iff they are closer than 4 m and 2 m. -/
theorem meets_aligned {cur : Fin 2 → Pt ℝ} {w : Pt ℝ} (hw : w.valid = true) (hc : (cur 1).valid = true)
    (hb : w.length = 4 ∧ w.width = 2 ∧ w.yaw = 0) (hb' : (cur 1).length = 4 ∧ (cur 1).width = 2 ∧ (cur 1).yaw = 0) :
    Meets cur 0 w 1 ↔ |w.x - (cur 1).x| < 4 ∧ |w.y - (cur 1).y| < 2 := by
  constructor
  · rintro ⟨-, -, -, p, ⟨u, v, hu, hv, hp⟩, ⟨u', v', hu', hv', hp'⟩⟩
    have h := congrArg Prod.fst (hp.symm.trans hp')
    have h2 := congrArg Prod.snd (hp.symm.trans hp')
    simp only [pointAt, heading, leftOf, hb, hb', Real.cos_zero, Real.sin_zero] at h h2 hu hu' hv hv'
    norm_num at h h2 hu hu' hv hv'
    rw [abs_lt] at hu hu' hv hv'
    rw [abs_lt, abs_lt]
    exact ⟨⟨by linarith [hu.1, hu'.2], by linarith [hu.2, hu'.1]⟩, ⟨by linarith [hv.1, hv'.2], by linarith [hv.2, hv'.1]⟩⟩
  · rintro ⟨h1, h2⟩
    rw [abs_lt] at h1 h2
    refine ⟨by decide, hw, hc, ((w.x + (cur 1).x) / 2, (w.y + (cur 1).y) / 2), ⟨((cur 1).x - w.x) / 2, ((cur 1).y - w.y) / 2, ?_, ?_, ?_⟩,
      ⟨(w.x - (cur 1).x) / 2, (w.y - (cur 1).y) / 2, ?_, ?_, ?_⟩⟩
    · rw [hb.1, abs_lt]; constructor <;> linarith [h1.1, h1.2]
    · rw [hb.2.1, abs_lt]; constructor <;> linarith [h2.1, h2.2]
    · simp only [pointAt, heading, leftOf, hb, Real.cos_zero, Real.sin_zero]
      refine Prod.ext ?_ ?_ <;> simp <;> ring
    · rw [hb'.1, abs_lt]; constructor <;> linarith [h1.1, h1.2]
    · rw [hb'.2.1, abs_lt]; constructor <;> linarith [h2.1, h2.2]
    · simp only [pointAt, heading, leftOf, hb', Real.cos_zero, Real.sin_zero]
      refine Prod.ext ?_ ?_ <;> simp <;> ring

theorem freeSpeed_ten {P : IdmParams} (ha : P.maxAccel = 2) (hd : P.desiredVel = 30) (hδ : P.delta = 4) (x y : ℝ) :
    10 ≤ freeSpeed P (ptAt x y 0 10 0) := by
  have hv : speedOf (ptAt x y 0 10 0) = 10 := by simp [speedOf, norm2, ptAt]
  unfold freeSpeed speedAfter idmFree
  rw [hv, ha, hd, hδ]
  have : ((10 : ℝ) / 30) ^ (4 : ℝ) ≤ 1 := Real.rpow_le_one (by norm_num) (by norm_num) (by norm_num)
  exact le_max_of_le_right (by linarith)

theorem spaceDist_self (p : Pt ℝ) : spaceDist p p = 0 := by simp [spaceDist]

theorem spaceDist_nonneg (p q : Pt ℝ) : 0 ≤ spaceDist p q := Real.sqrt_nonneg _

/-- A route that starts at the object's position. -/
theorem nearest_first {T : Nat} [NeZero T] {log : Fin T → Pt ℝ} {p : Pt ℝ} (h : log 0 = p) (hv : p.valid = true) :
    NearestInSpace log p 0 := by
  refine ⟨by rw [h]; exact hv, fun u _ => ?_, fun u hu => absurd hu (by simp)⟩
  rw [h, spaceDist_self]
  exact spaceDist_nonneg _ _

theorem turn_blocked : RouteBlocked {} (turnScen.logTrajectory 0) (fun j => turnScen.simTrajectory j 0) 0 := by
  refine ⟨ptAt 6 6 0 10 0, ⟨0, 2, nearest_first (by simp [turnScen]) rfl, by decide, by decide, ?_⟩, 1, ?_⟩
  · simp only [turnScen, if_true]
    norm_num
  · refine (meets_aligned rfl rfl ⟨rfl, rfl, rfl⟩ ⟨rfl, rfl, rfl⟩).2 ?_
    simp [turnScen, ptAt]

/-- The default agent drives towards the parked car on its route as on an empty road. -/
theorem turn_speed : idmUpdateSpeed {} turnScen 0 = .ok (freeSpeed {} (turnScen.simTrajectory 0 0), true) := by
  obtain ⟨speed, h1, h2, -⟩ := C48_default (P := {}) rfl (by norm_num) (by norm_num) (s := turnScen) (i := 0) (t := 0) rfl rfl
  rw [h1, h2]
  · rfl
  · intro k hk j hj
    have hj1 : j = 1 := by
      have := hj.1
      fin_cases j
      · exact absurd rfl this
      · rfl
    subst hj1
    have := ((meets_aligned (by rfl) (by rfl) ⟨rfl, rfl, rfl⟩ ⟨rfl, rfl, rfl⟩).1 hj).2
    simp [turnScen, ptAt, aheadOf, heading] at this
    norm_num at this

theorem phantom_speed : idmUpdateSpeed {} phantomScen 0 = .ok (0, true) := by
  rw [← jam_stops]
  exact C162_default_ignores_route (t := 0) (t' := 0) rfl rfl rfl (fun _ => rfl) 0

theorem phantom_clear (P : IdmParams) : ¬ RouteBlocked P (phantomScen.logTrajectory 0) (fun j => phantomScen.simTrajectory j 0) 0 := by
  rintro ⟨w, ⟨t, u, -, -, -, rfl⟩, j, hj⟩
  have hj1 : j = 1 := by
    have := hj.1
    fin_cases j
    · exact absurd rfl this
    · rfl
  subst hj1
  have := (meets_aligned (by rfl) (by rfl) ⟨by rfl, by rfl, by rfl⟩ ⟨by rfl, by rfl, by rfl⟩).1 hj
  simp only [phantomScen, turnScen, jamScen, ptAt, if_true, Fin.one_eq_zero_iff, if_false] at this
  norm_num at this
  rw [abs_lt] at this
  have h1 : (u.val : ℝ) < 1 := by linarith [this.2]
  have h0 : u.val = 0 := by
    have : u.val < 1 := by exact_mod_cast h1
    omega
  rw [h0] at this
  norm_num at this

/-- The code violates the claim with the default setting, in both directions: it drives on towards a car parked on its route where the
route turns, and it stops dead for a car beside the route. -/
theorem C162_full_violated : ¬ ReactsToRoute 2 11 {} ∧ ¬ IgnoresOffRoute 2 11 {} := by
  constructor
  · intro h
    have h10 := freeSpeed_ten (P := {}) rfl rfl rfl 0 0
    exact absurd (h turnScen 0 0 rfl rfl turn_blocked (by
      have : turnScen.simTrajectory 0 0 = ptAt 0 0 0 10 0 := rfl
      rw [this]; linarith) _ turn_speed) (lt_irrefl _)
  · intro h
    have h10 := freeSpeed_ten (P := {}) rfl rfl rfl 0 0
    have h1 := h phantomScen 0 0 rfl rfl ⟨0, rfl⟩ (phantom_clear _) _ phantom_speed
    have : phantomScen.simTrajectory 0 0 = ptAt 0 0 0 10 0 := rfl
    rw [this] at h1
    linarith

/-- The default setting except that the agent looks along the log. -/
noncomputable def alongLog : IdmParams := { lookaheadFromCurrentPosition := false }

theorem tail_nearest : NearestInSpace (tailScen.logTrajectory 0) (tailScen.simTrajectory 0 10) 10 := by
  have he : tailScen.logTrajectory 0 10 = tailScen.simTrajectory 0 10 := by
    simp only [tailScen, if_true]
    norm_num
  refine ⟨rfl, fun u _ => ?_, fun u hu _ => ?_⟩
  · rw [he, spaceDist_self]
    exact spaceDist_nonneg _ _
  · rw [he, spaceDist_self]
    unfold spaceDist
    apply Real.sqrt_pos.2
    simp only [tailScen, ptAt, if_true]
    have : (u.val : ℝ) < 10 := by exact_mod_cast hu
    nlinarith

theorem tail_lookahead : ∃ ws, idmLookahead alongLog (tailScen.logTrajectory 0) (tailScen.simTrajectory 0 10) = .ok ws := by
  have := idmLookahead_length alongLog (tailScen.logTrajectory 0) (tailScen.simTrajectory 0 10)
  rw [if_neg (by simp [alongLog])] at this
  obtain ⟨ws, h, -⟩ := this
  exact ⟨ws, h⟩

/-- Looking along the log does not repair the second direction: in the last `max_lookahead` steps of the log the window reaches back, and
the agent brakes for a car that follows it at a distance of 21 m. -/
theorem C162_behind_violated : ¬ IgnoresOffRoute 2 11 alongLog := by
  intro h
  obtain ⟨ws, hws⟩ := tail_lookahead
  have hmem := (lookahead_log (P := alongLog) rfl hws tail_nearest).2.1 3 (by decide) (by decide)
  have hnf : ¬ FreeRoad (fun j => tailScen.simTrajectory j 10) 0 ws := fun hf => by
    refine hf _ hmem 1 ((meets_aligned (by rfl) (by rfl) ⟨by rfl, by rfl, by rfl⟩ ⟨by rfl, by rfl, by rfl⟩).2 ?_)
    simp only [tailScen, ptAt, if_true, Fin.one_eq_zero_iff, if_false]
    norm_num
  have hlen : ws.length ≠ 0 := fun h0 => by
    rw [List.eq_nil_of_length_eq_zero h0] at hmem
    cases hmem
  have hs := idmUpdateSpeed_eq (s := tailScen) (i := 0) (t := 10) rfl hws hlen
  have h10 := freeSpeed_ten (P := alongLog) rfl rfl rfl 30 0
  have hlt := slower (P := alongLog) (by norm_num [alongLog]) (by norm_num [alongLog]) (s := tailScen) (i := 0) (t := 10) rfl rfl hws hnf
    (by
      have : tailScen.simTrajectory 0 10 = ptAt 30 0 0 10 0 := rfl
      rw [this]; linarith) hs
  refine hlt.ne (h tailScen 0 10 rfl rfl ⟨0, rfl⟩ ?_ _ hs)
  rintro ⟨w, ⟨t, u, ht, h1, -, rfl⟩, j, hj⟩
  obtain rfl := ht.unique tail_nearest
  have hu : u = 10 := Fin.ext (by have := u.isLt; have : (10 : Fin 11).val = 10 := rfl; omega)
  subst hu
  have hj1 : j = 1 := by
    have := hj.1
    fin_cases j
    · exact absurd rfl this
    · rfl
  subst hj1
  have := ((meets_aligned (by rfl) (by rfl) ⟨by rfl, by rfl, by rfl⟩ ⟨by rfl, by rfl, by rfl⟩).1 hj).1
  simp only [tailScen, ptAt, if_true, Fin.one_eq_zero_iff, if_false] at this
  norm_num at this

/-- The hypotheses of the partial theorems are met: on the blocked route the agent that looks along the log does slow down. -/
example : ∃ r, idmUpdateSpeed alongLog turnScen 0 = .ok r ∧ r.1 < freeSpeed alongLog (turnScen.simTrajectory 0 0) := by
  have hnofail := C48_fails_iff alongLog turnScen 0
  cases hr : idmUpdateSpeed alongLog turnScen 0 with
  | error e =>
    have := (hnofail.1 ⟨e, hr⟩).2
    simp [alongLog] at this
  | ok r =>
    refine ⟨r, rfl, C162_looks_along_log_partial (P := alongLog) rfl (by norm_num [alongLog]) (by norm_num [alongLog]) turnScen 0 0 rfl
      rfl turn_blocked ?_ r hr⟩
    have h10 := freeSpeed_ten (P := alongLog) rfl rfl rfl 0 0
    have : turnScen.simTrajectory 0 0 = ptAt 0 0 0 10 0 := rfl
    rw [this]; linarith

/-- The same agent without added points. -/
noncomputable def onlyLog : IdmParams := { lookaheadFromCurrentPosition := false, additionalLookaheadPoints := 0 }

/-- Nothing on the route and nothing added beyond it: the car beside the route is ignored. -/
example : idmUpdateSpeed onlyLog phantomScen 0 = .ok (freeSpeed onlyLog (phantomScen.simTrajectory 0 0), true) := by
  have hnofail := C48_fails_iff onlyLog phantomScen 0
  cases hr : idmUpdateSpeed onlyLog phantomScen 0 with
  | error e =>
    have := (hnofail.1 ⟨e, hr⟩).2
    simp [onlyLog] at this
  | ok r =>
    have h1 := C162_ignores_others_partial (P := onlyLog) (t := 0) (t' := 0) rfl rfl rfl rfl
      (nearest_first (by simp [phantomScen, turnScen, jamScen]) rfl) (by simp [onlyLog]) (phantom_clear _) hr
    exact congrArg Except.ok (Prod.ext h1 (C47_speed_nonneg hr).2)

end Waymax
