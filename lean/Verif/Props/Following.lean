import Verif.Props.IdmSpeed
import Verif.Props.PlanningGaps
/-
C47 (whole episodes), C49, C75, C76 and C78: way-point following agents, constant speed and frozen agents inside the planning
environment, and the constant-speed actor (real arithmetic).
-/

namespace Waymax

open Real

section
variable {D K P : Type} {n T : Nat} [NeZero T]

/-! ### What one step and many steps do to a driven object -/

theorem SameScenario.trans {α : Type} {n T : Nat} {a b c : SimState α n T} (h1 : SameScenario a b) (h2 : SameScenario b c) :
    SameScenario a c :=
  ⟨h2.log.trans h1.log, h2.lights.trans h1.lights, h2.objects.trans h1.objects, h2.paths.trans h1.paths, h2.roads.trans h1.roads⟩

theorem driven_step {E : PlanEnv D Unit K P n T} {k : Nat} {ctrl : SimState ℝ n T → Fin n → Bool}
    {upd : SimState ℝ n T → Fin n → Upd ℝ} {i : Fin n} {scen : SimState ℝ n T} (hD : DrivenBy E k ctrl upd i scen)
    {split : K → Nat → List K} (hsplit : ∀ k m, (split k m).length = m) {s s' : PlanState Unit n T} {a : Act D}
    {rng : Option K} (hscen : SameScenario scen s.sim) (h : planStep E split s a rng = .ok s') {t t' : Fin T}
    (ht : (t : Int) = s.sim.timestep) (ht' : (t' : Int) = s.sim.timestep + 1) :
    let p := s'.sim.simTrajectory i t'
    let c := s.sim.simTrajectory i t
    let u := upd s.sim i
    (p.x = u.x ∧ p.y = u.y ∧ p.yaw = u.yaw ∧ p.velX = u.velX ∧ p.velY = u.velY) ∧
    (c.valid = true → p.valid = true) ∧
    (p.z = c.z ∧ p.length = c.length ∧ p.width = c.width ∧ p.height = c.height) ∧
    s'.sim.timestep = s.sim.timestep + 1 ∧ SameScenario scen s'.sim := by
  intro p c u
  have hlen : E.actors.length = s.actorStates.length := by
    by_contra hne
    obtain ⟨e, he⟩ := (C45_fails_iff E split s a rng).2 hne
    rw [he] at h; cases h
  obtain ⟨hklt, hk⟩ := List.getElem?_eq_some_iff.1 hD.agent
  have hout : ∃ o, agentOutput E split s rng k = some o ∧ o.isControlled = ctrl s.sim ∧
      o.action = fun j => (upd s.sim j).asAction := by
    have h2 : k < s.actorStates.length := hlen ▸ hklt
    have h3 : k < E.params.length := hD.params ▸ hklt
    unfold agentOutput
    rw [hD.agent, List.getElem?_eq_getElem h2, List.getElem?_eq_getElem h3]
    cases rng with
    | none => exact ⟨_, rfl, rfl, rfl⟩
    | some r =>
      have h4 : k < (split r E.actors.length).length := by rw [hsplit]; exact hklt
      simp only [List.getElem?_eq_getElem h4, Option.map_some]
      exact ⟨_, rfl, rfl, rfl⟩
  obtain ⟨o, ho, hoc, hoa⟩ := hout
  have hcl : Claims E split s rng i k o :=
    ⟨ho, by rw [hoc]; exact hD.claims _ hscen, by rw [hscen.log]; exact hD.apart⟩
  have hlast : ∀ k' o', k < k' → ¬ Claims E split s rng i k' o' := by
    rintro k' o' hkk ⟨h1, h2, -⟩
    unfold agentOutput at h1
    cases ha : E.actors[k']? with
    | none => simp [ha] at h1
    | some ag =>
      have hno := hD.later k' ag hkk ha
      rw [ha] at h1
      split at h1
      · rename_i a' x' p' hea _ _
        cases hea
        split at h1
        · cases h1
          rw [hno _ _ _ _ hscen] at h2; cases h2
        · rw [Option.map_eq_some_iff] at h1
          obtain ⟨key, -, hkey⟩ := h1
          rw [← hkey, hno _ _ _ _ hscen] at h2; cases h2
      · cases h1
  have hw := (C45_who_moves h ht ht' i).1 k o hcl hlast
  obtain ⟨hv, -, hz, hl, hwd, hh, -, hts, hsc, -⟩ := C45_rest_of_step h ht ht' i
  refine ⟨?_, fun hc => hv.2 (.inl ⟨hc, .inr ⟨k, o, hcl⟩⟩), ⟨hz, hl, hwd, hh⟩, hts, hscen.trans hsc⟩
  rw [hoa] at hw
  exact hw

/-- Invariants of the current point of a driven object hold through any number of steps. -/
theorem driven_many {E : PlanEnv D Unit K P n T} {k : Nat} {ctrl : SimState ℝ n T → Fin n → Bool}
    {upd : SimState ℝ n T → Fin n → Upd ℝ} {i : Fin n} {scen : SimState ℝ n T} (hD : DrivenBy E k ctrl upd i scen)
    {split : K → Nat → List K} (hsplit : ∀ k m, (split k m).length = m) (Q : Pt ℝ → Prop)
    (hQ : ∀ (s : SimState ℝ n T) (t : Fin T) (p : Pt ℝ), SameScenario scen s → (t : Int) = s.timestep →
      Q (s.simTrajectory i t) →
      p.x = (upd s i).x ∧ p.y = (upd s i).y ∧ p.yaw = (upd s i).yaw ∧ p.velX = (upd s i).velX ∧ p.velY = (upd s i).velY →
      ((s.simTrajectory i t).valid = true → p.valid = true) →
      p.z = (s.simTrajectory i t).z ∧ p.length = (s.simTrajectory i t).length ∧ p.width = (s.simTrajectory i t).width ∧
        p.height = (s.simTrajectory i t).height → Q p)
    {acts : List (Act D × Option K)} {s0 s1 : PlanState Unit n T} (hscen : SameScenario scen s0.sim)
    (h : planMany E split s0 acts = .ok s1) {t0 t1 : Fin T} (ht0 : (t0 : Int) = s0.sim.timestep)
    (ht1 : (t1 : Int) = s0.sim.timestep + acts.length) (h0 : Q (s0.sim.simTrajectory i t0)) :
    s1.sim.timestep = s0.sim.timestep + acts.length ∧ Q (s1.sim.simTrajectory i t1) := by
  induction acts generalizing s0 t0 with
  | nil =>
    have := Except.ok.inj h
    subst this
    have htt : t1 = t0 := Fin.ext (by simp at ht1; omega)
    subst htt
    exact ⟨by simp, h0⟩
  | cons a as ih =>
    unfold planMany at h
    cases hs : planStep E split s0 a.1 a.2 with
    | error e => rw [hs] at h; cases h
    | ok s' =>
      rw [hs] at h
      change planMany E split s' as = .ok s1 at h
      have hlt : t0.val + 1 < T := by
        have := t1.isLt
        simp only [List.length_cons] at ht1
        push_cast at ht1
        omega
      obtain ⟨hf, hv, hz, hts, hsc⟩ := driven_step hD hsplit hscen hs (t' := ⟨t0.val + 1, hlt⟩) ht0 (by push_cast; omega)
      obtain ⟨r1, r2⟩ := ih hsc h (t0 := ⟨t0.val + 1, hlt⟩) (by rw [hts]; push_cast; omega)
        (by rw [hts, ht1]; simp only [List.length_cons]; push_cast; ring) (hQ _ _ _ hscen ht0 h0 hf hv hz)
      refine ⟨?_, r2⟩
      rw [r1, hts]
      simp only [List.length_cons]
      push_cast
      ring

/-! ### C78 -/

/-- A frozen agent keeps its object where it is, with the same heading, velocity, size and elevation, for any number of steps, and
never invalidates it. -/
theorem C78_frozen {E : PlanEnv D Unit K P n T} {k : Nat} {ctrl : SimState ℝ n T → Fin n → Bool} {i : Fin n}
    {scen : SimState ℝ n T} (hD : DrivenBy E k ctrl frozenUpdate i scen)
    {split : K → Nat → List K} (hsplit : ∀ k m, (split k m).length = m)
    {acts : List (Act D × Option K)} {s0 s1 : PlanState Unit n T} (hscen : SameScenario scen s0.sim)
    (h : planMany E split s0 acts = .ok s1) {t0 t1 : Fin T} (ht0 : (t0 : Int) = s0.sim.timestep)
    (ht1 : (t1 : Int) = s0.sim.timestep + acts.length) :
    let p := s1.sim.simTrajectory i t1
    let c := s0.sim.simTrajectory i t0
    p.x = c.x ∧ p.y = c.y ∧ p.z = c.z ∧ p.yaw = c.yaw ∧ p.velX = c.velX ∧ p.velY = c.velY ∧ p.length = c.length ∧
      p.width = c.width ∧ p.height = c.height ∧ (c.valid = true → p.valid = true) := by
  intro p c
  refine (driven_many hD hsplit (fun p => p.x = c.x ∧ p.y = c.y ∧ p.z = c.z ∧ p.yaw = c.yaw ∧ p.velX = c.velX ∧ p.velY = c.velY ∧
    p.length = c.length ∧ p.width = c.width ∧ p.height = c.height ∧ (c.valid = true → p.valid = true)) ?_ hscen h ht0 ht1
    ⟨rfl, rfl, rfl, rfl, rfl, rfl, rfl, rfl, rfl, id⟩).2
  rintro s t p - ht ⟨hx, hy, hz, hyaw, hvx, hvy, hl, hw, hh, hv⟩ ⟨ux, uy, uyaw, uvx, uvy⟩ uv ⟨uz, ul, uw, uh⟩
  unfold frozenUpdate at ux uy uyaw uvx uvy
  rw [dynIndex_of_eq _ ht] at ux uy uyaw uvx uvy
  exact ⟨ux.trans hx, uy.trans hy, uz.trans hz, uyaw.trans hyaw, uvx.trans hvx, uvy.trans hvy, ul.trans hl, uw.trans hw,
    uh.trans hh, fun hc => uv (hv hc)⟩

/-! ### C76: the route -/

omit [NeZero T] in
theorem argminFin_spec {β : Type} [LinearOrder β] {T : Nat} [NeZero T] (f : Fin T → β) :
    ∃ t : Fin T, argminFin f = t.val ∧ (∀ u, f t ≤ f u) ∧ ∀ u < t, f t < f u := by
  have hne : List.ofFn f ≠ [] := by
    have := NeZero.ne T
    intro h
    exact this (by simpa using congrArg List.length h)
  obtain ⟨v, hv, hmin, hfirst⟩ := argmin_spec hne
  obtain ⟨hlt, hv⟩ := List.getElem?_eq_some_iff.1 hv
  have hT : argmin (List.ofFn f) < T := by simpa using hlt
  rw [List.getElem_ofFn] at hv
  refine ⟨⟨argmin (List.ofFn f), hT⟩, rfl, fun u => ?_, fun u hu => ?_⟩
  · have := hmin (f u) (by simp [List.mem_ofFn])
    rw [← hv] at this
    exact this
  · have := hfirst u.val hu (f u) (by rw [List.getElem?_ofFn, dif_pos u.isLt])
    rw [← hv] at this
    exact this

theorem nearest_index (log : Fin T → Pt ℝ) (q : ℝ × ℝ) (hvalid : ∃ t, (log t).valid = true) :
    ∃ t : Fin T, argminFin (fun t => orInf (log t).valid (hypot ((log t).x - q.1) ((log t).y - q.2))) = t.val ∧
      NearestLogged log q t := by
  obtain ⟨t, h1, h2, h3⟩ := argminFin_spec fun t => orInf (log t).valid (hypot ((log t).x - q.1) ((log t).y - q.2))
  obtain ⟨v, hv⟩ := hvalid
  have htv : (log t).valid = true := by
    by_contra hc
    have := h2 v
    simp only [orInf, hv, if_true, hc] at this
    exact absurd (this.trans_lt (WithTop.coe_lt_top _)) (lt_irrefl _)
  refine ⟨t, h1, htv, fun u hu => ?_, fun u hu huv => ?_⟩
  · have := h2 u
    simp only [orInf, htv, hu, if_true, WithTop.coe_le_coe] at this
    exact this
  · have := h3 u hu
    simp only [orInf, htv, huv, if_true, WithTop.coe_lt_coe] at this
    exact this

theorem last_index (log : Fin T → Pt ℝ) (hvalid : ∃ t, (log t).valid = true) :
    ∃ t : Fin T, argmaxFin (fun t : Fin T => if (log t).valid then t.val else 0) = t.val ∧ LastLogged log t := by
  obtain ⟨t, h1, h2, h3⟩ := argminFin_spec fun t : Fin T => OrderDual.toDual (if (log t).valid then t.val else 0)
  refine ⟨t, h1, ?_⟩
  have h2' : ∀ u : Fin T, (if (log u).valid then u.val else 0) ≤ (if (log t).valid then t.val else 0) := fun u => h2 u
  have h3' : ∀ u < t, (if (log u).valid then u.val else 0) < (if (log t).valid then t.val else 0) := fun u hu => h3 u hu
  obtain ⟨v, hv⟩ := hvalid
  have htv : (log t).valid = true := by
    by_contra hc
    have hb := h2' v
    rw [if_pos hv, if_neg hc] at hb
    have hv0 : v.val = 0 := by omega
    have : v ≠ t := by rintro rfl; exact hc hv
    have hlt : v < t := by
      rw [Fin.lt_def]
      have : v.val ≠ t.val := fun h => this (Fin.ext h)
      omega
    have := h3' v hlt
    rw [if_neg hc] at this
    omega
  refine ⟨htv, fun u hu => ?_⟩
  have := h2' u
  rw [if_pos hu, if_pos htv] at this
  exact this

theorem LastLogged.unique {log : Fin T → Pt ℝ} {t u : Fin T} (h : LastLogged log t) (h' : LastLogged log u) : t = u :=
  le_antisymm (h'.2 _ h.1) (h.2 _ h'.1)

theorem foot_nearest (w : Pt ℝ) (q : ℝ × ℝ) :
    let a := cos w.yaw * (q.1 - w.x) + sin w.yaw * (q.2 - w.y)
    FootOn w q (cos w.yaw * a + w.x, sin w.yaw * a + w.y) := by
  intro a
  refine ⟨⟨a, by simp [posOf, aheadOf, heading]; constructor <;> ring⟩, fun s => ?_⟩
  unfold dist2
  apply Real.sqrt_le_sqrt
  simp only [posOf, aheadOf, heading]
  have hcs := Real.sin_sq_add_cos_sq w.yaw
  have key : (w.x + s * cos w.yaw - q.1) ^ 2 + (w.y + s * sin w.yaw - q.2) ^ 2 =
      (cos w.yaw * a + w.x - q.1) ^ 2 + (sin w.yaw * a + w.y - q.2) ^ 2 + (s - a) ^ 2 := by
    have h1 : (w.x + s * cos w.yaw - q.1) ^ 2 + (w.y + s * sin w.yaw - q.2) ^ 2 =
        (w.x - q.1) ^ 2 + (w.y - q.2) ^ 2 - 2 * s * a + s ^ 2 * (sin w.yaw ^ 2 + cos w.yaw ^ 2) := by
      simp only [a]; ring
    have h2 : (cos w.yaw * a + w.x - q.1) ^ 2 + (sin w.yaw * a + w.y - q.2) ^ 2 =
        (w.x - q.1) ^ 2 + (w.y - q.2) ^ 2 - 2 * a * a + a ^ 2 * (sin w.yaw ^ 2 + cos w.yaw ^ 2) := by
      have : ∀ b, (cos w.yaw * b + w.x - q.1) ^ 2 + (sin w.yaw * b + w.y - q.2) ^ 2 =
        (w.x - q.1) ^ 2 + (w.y - q.2) ^ 2 - 2 * b * a + b ^ 2 * (sin w.yaw ^ 2 + cos w.yaw ^ 2) := by
        intro b; simp only [a]; ring
      exact this a
    rw [h1, h2, hcs]; ring
  rw [key]
  have := sq_nonneg (s - a)
  linarith

/-- The projection onto the log. -/
theorem project_spec (q : ℝ × ℝ) (log : Fin T → Pt ℝ) (ext : Bool) (hvalid : ∃ t, (log t).valid = true) :
    let r := projectToTrajectory q.1 q.2 log ext
    ∃ t, NearestLogged log q t ∧ r.yaw = (log t).yaw ∧ (r.reachedLastPoint = true ↔ AtEnd log q (log t)) ∧
      (ext = true ∨ r.reachedLastPoint = false → FootOn (log t) q (r.x, r.y)) ∧
      (ext = false ∧ r.reachedLastPoint = true → (r.x, r.y) = posOf (log t)) := by
  intro r
  obtain ⟨t, ht, hn⟩ := nearest_index log q hvalid
  obtain ⟨l, hl, hlast⟩ := last_index log hvalid
  have hsrc : ∀ {β : Type} (f : Fin T → β), dynIndex f ((argminFin fun t =>
      orInf (log t).valid (hypot ((log t).x - q.1) ((log t).y - q.2)) : Nat) : Int) = f t := fun f =>
    dynIndex_of_eq _ (by rw [ht])
  have hle : dynIndex log ((argmaxFin fun t : Fin T => if (log t).valid then t.val else 0 : Nat) : Int) = log l :=
    dynIndex_of_eq _ (by rw [hl])
  have hr : r.reachedLastPoint = true ↔ AtEnd log q (log t) := by
    simp only [r, projectToTrajectory]
    rw [hsrc, hsrc, hle, Bool.or_eq_true, decide_eq_true_iff, decide_eq_true_iff]
    unfold AtEnd
    have e1 : hypot ((log l).x - (log t).x) ((log l).y - (log t).y) < 5e-2 ↔
        ∃ t', LastLogged log t' ∧ dist2 (posOf (log t')) (posOf (log t)) < 0.05 := by
      have : (5e-2 : ℝ) = 0.05 := by norm_num
      rw [this]
      constructor
      · intro h; exact ⟨l, hlast, h⟩
      · rintro ⟨t', h1, h2⟩; rw [hlast.unique h1]; exact h2
    rw [e1, orInf, if_pos hn.1, gt_iff_lt, WithTop.coe_lt_coe]
    rfl
  refine ⟨t, hn, ?_, hr, ?_, ?_⟩
  · simp only [r, projectToTrajectory]
    rw [hsrc]
  · intro hc
    have hd : (!ext && r.reachedLastPoint) = false := by rcases hc with h | h <;> simp [h]
    simp only [r, projectToTrajectory] at hd
    simp only [r, projectToTrajectory, hd, Bool.false_eq_true, if_false]
    rw [hsrc]
    exact foot_nearest (log t) q
  · rintro ⟨h1, h2⟩
    have hd : (!ext && r.reachedLastPoint) = true := by simp [h1, h2]
    simp only [r, projectToTrajectory] at hd
    simp only [r, projectToTrajectory, hd, if_true]
    rw [hsrc]
    simp [posOf]

/-- What a way-point following agent tells a valid object with logged way points to do. -/
theorem waypoint_spec {inv : Bool} {us : UpdateSpeed n T} {s : SimState ℝ n T} {i : Fin n} {t : Fin T}
    (ht : (t : Int) = s.timestep) (hv : (s.simTrajectory i t).valid = true) (hus : (us s i).2 = true)
    (hlog : ∃ t, (s.logTrajectory i t).valid = true) :
    let c := s.simTrajectory i t
    let v := (us s i).1
    let q := coast c v
    let u := waypointUpdate inv us s i
    ∃ t0, NearestLogged (s.logTrajectory i) q t0 ∧
      (¬ AtEnd (s.logTrajectory i) q (s.logTrajectory i t0) →
        FootOn (s.logTrajectory i t0) q (u.x, u.y) ∧ u.yaw = (s.logTrajectory i t0).yaw ∧
          u.velX = v * (heading c.yaw).1 ∧ u.velY = v * (heading c.yaw).2 ∧ u.valid = true) ∧
      (AtEnd (s.logTrajectory i) q (s.logTrajectory i t0) → inv = false →
        FootOn (s.logTrajectory i t0) q (u.x, u.y) ∧ u.yaw = (s.logTrajectory i t0).yaw ∧
          u.velX = c.velX ∧ u.velY = c.velY ∧ u.valid = true) ∧
      (AtEnd (s.logTrajectory i) q (s.logTrajectory i t0) → inv = true → v ≤ 1 →
        (u.x, u.y) = posOf (s.logTrajectory i t0) ∧ u.yaw = (s.logTrajectory i t0).yaw ∧ u.velX = 0 ∧ u.velY = 0 ∧
          u.valid = true) ∧
      (AtEnd (s.logTrajectory i) q (s.logTrajectory i t0) → inv = true → 1 < v →
        u = { x := -1, y := -1, yaw := -1, velX := -1, velY := -1, valid := false }) := by
  intro c v q u
  obtain ⟨t0, hn, hyaw, hreach, hfoot, hpos⟩ := project_spec q (s.logTrajectory i) (!inv) hlog
  refine ⟨t0, hn, ?_⟩
  have hq1 : c.x + (v + c.speed) / 2 * 0.1 * cos c.yaw = q.1 := by rw [Pt.speed_eq hv]; rfl
  have hq2 : c.y + (v + c.speed) / 2 * 0.1 * sin c.yaw = q.2 := by rw [Pt.speed_eq hv]; rfl
  have hu : u = (let p := nextByProjection inv (s.logTrajectory i) c v true
    { x := p.x, y := p.y, yaw := p.yaw, velX := p.velX, velY := p.velY, valid := p.valid }) := by
    simp only [u, waypointUpdate, dynIndex_of_eq _ ht, hus]
    rfl
  have hcv : c.valid = true := hv
  simp only [nextByProjection, if_true, hq1, hq2, hcv, Bool.true_and, Bool.and_true] at hu
  generalize hproj : projectToTrajectory q.1 q.2 (s.logTrajectory i) (!inv) = r at hu hyaw hreach hfoot hpos
  refine ⟨fun hne => ?_, fun he hi => ?_, fun he hi hv1 => ?_, fun he hi hv1 => ?_⟩
  · have hr : r.reachedLastPoint = false := by simpa using fun h => hne (hreach.1 h)
    have hb : (if inv = true then !(r.reachedLastPoint && decide (v > 1)) else true) = true := by simp [hr]
    rw [if_pos hb] at hu
    simp only [hr, Bool.false_eq_true, if_false] at hu
    rw [hu]
    exact ⟨hfoot (.inr hr), hyaw, rfl, rfl, rfl⟩
  · subst hi
    have hr : r.reachedLastPoint = true := hreach.2 he
    simp only [hr, Bool.false_eq_true, if_false, if_true] at hu
    rw [hu]
    exact ⟨hfoot (.inl rfl), hyaw, rfl, rfl, rfl⟩
  · subst hi
    have hr : r.reachedLastPoint = true := hreach.2 he
    have hb : (if (true : Bool) = true then !(r.reachedLastPoint && decide (v > 1)) else true) = true := by
      simp [not_lt.2 hv1]
    rw [if_pos hb] at hu
    simp only [hr, if_true] at hu
    rw [hu]
    exact ⟨hpos ⟨rfl, hr⟩, hyaw, rfl, rfl, rfl⟩
  · subst hi
    have hr : r.reachedLastPoint = true := hreach.2 he
    have hb : ¬ (if (true : Bool) = true then !(r.reachedLastPoint && decide (v > 1)) else true) = true := by
      simp [hr, hv1]
    rw [if_neg hb] at hu
    rw [hu]
    simp [invalidPt, ScalarOps.invalid]

/-- Way-point followers stay on the logged route. Take an object the agent drives, present now and somewhere in the log, to be
given speed `v`, and let `q` be the point it would coast to. After the step it is on the straight line through the nearest
logged way point, with that way point's heading, at the point of the line nearest to `q`; its velocity has magnitude `v`
along its present heading. At the end of its route it keeps its velocity, or, if the agent invalidates at the end and `v` is
at most 1 m/s, it stops at the way point itself. (The remaining case is C75.) -/
theorem C76_follows_route {E : PlanEnv D Unit K P n T} {k : Nat} {ctrl : SimState ℝ n T → Fin n → Bool}
    {inv : Bool} {us : UpdateSpeed n T} {i : Fin n} {scen : SimState ℝ n T}
    (hD : DrivenBy E k ctrl (waypointUpdate inv us) i scen)
    {split : K → Nat → List K} (hsplit : ∀ k m, (split k m).length = m) {s s' : PlanState Unit n T} {a : Act D}
    {rng : Option K} (hscen : SameScenario scen s.sim) (h : planStep E split s a rng = .ok s') {t t' : Fin T}
    (ht : (t : Int) = s.sim.timestep) (ht' : (t' : Int) = s.sim.timestep + 1)
    (hv : (s.sim.simTrajectory i t).valid = true) (hus : (us s.sim i).2 = true)
    (hlog : ∃ t, (scen.logTrajectory i t).valid = true) :
    let log := scen.logTrajectory i
    let c := s.sim.simTrajectory i t
    let p := s'.sim.simTrajectory i t'
    let v := (us s.sim i).1
    let q := coast c v
    ∃ t0, NearestLogged log q t0 ∧ p.valid = true ∧
      (¬ AtEnd log q (log t0) → FootOn (log t0) q (posOf p) ∧ p.yaw = (log t0).yaw ∧
        p.velX = v * (heading c.yaw).1 ∧ p.velY = v * (heading c.yaw).2 ∧ speedOf p = |v|) ∧
      (AtEnd log q (log t0) → inv = false → FootOn (log t0) q (posOf p) ∧ p.yaw = (log t0).yaw ∧
        p.velX = c.velX ∧ p.velY = c.velY) ∧
      (AtEnd log q (log t0) → inv = true → v ≤ 1 → posOf p = posOf (log t0) ∧ p.yaw = (log t0).yaw ∧
        p.velX = 0 ∧ p.velY = 0) := by
  intro log c p v q
  obtain ⟨⟨fx, fy, fyaw, fvx, fvy⟩, fv, -, -, -⟩ := driven_step hD hsplit hscen h ht ht'
  obtain ⟨t0, hn, h1, h2, h3, -⟩ := waypoint_spec (inv := inv) (us := us) ht hv hus (by rw [hscen.log]; exact hlog)
  rw [hscen.log] at hn h1 h2 h3
  have hp : posOf p = ((waypointUpdate inv us s.sim i).x, (waypointUpdate inv us s.sim i).y) := Prod.ext fx fy
  refine ⟨t0, hn, fv hv, fun he => ?_, fun he hi => ?_, fun he hi hv1 => ?_⟩
  · obtain ⟨a1, a2, a3, a4, -⟩ := h1 he
    refine ⟨by rw [hp]; exact a1, fyaw.trans a2, fvx.trans a3, fvy.trans a4, ?_⟩
    unfold speedOf norm2
    have e1 : p.velX = v * (heading c.yaw).1 := fvx.trans a3
    have e2 : p.velY = v * (heading c.yaw).2 := fvy.trans a4
    simp only [e1, e2, heading]
    have : (v * cos c.yaw) ^ 2 + (v * sin c.yaw) ^ 2 = v ^ 2 := by
      have := Real.sin_sq_add_cos_sq c.yaw
      have h : (v * cos c.yaw) ^ 2 + (v * sin c.yaw) ^ 2 = v ^ 2 * (sin c.yaw ^ 2 + cos c.yaw ^ 2) := by ring
      rw [h, this, mul_one]
    rw [this, Real.sqrt_sq_eq_abs]
  · obtain ⟨a1, a2, a3, a4, -⟩ := h2 he hi
    exact ⟨by rw [hp]; exact a1, fyaw.trans a2, fvx.trans a3, fvy.trans a4⟩
  · obtain ⟨a1, a2, a3, a4, -⟩ := h3 he hi hv1
    exact ⟨hp.trans a1, fyaw.trans a2, fvx.trans a3, fvy.trans a4⟩

/-! ### C75: the end of the route -/

/-- The documented behaviour of `invalidate_on_end`: an object driven by such an agent that reaches the end of its route while
moving (speed above 1 m/s) is invalid in the next state. -/
def EndInvalidates (D K P : Type) (n T : Nat) [NeZero T] : Prop :=
  ∀ (E : PlanEnv D Unit K P n T) (k : Nat) (ctrl : SimState ℝ n T → Fin n → Bool) (us : UpdateSpeed n T) (i : Fin n)
    (scen : SimState ℝ n T), DrivenBy E k ctrl (waypointUpdate true us) i scen →
    ∀ (split : K → Nat → List K), (∀ k m, (split k m).length = m) → ∀ (s s' : PlanState Unit n T) (a : Act D) (rng : Option K),
    SameScenario scen s.sim → planStep E split s a rng = .ok s' → ∀ t t' : Fin T, (t : Int) = s.sim.timestep →
    (t' : Int) = s.sim.timestep + 1 → (s.sim.simTrajectory i t).valid = true → (us s.sim i).2 = true → 1 < (us s.sim i).1 →
    (∃ t0, NearestLogged (scen.logTrajectory i) (coast (s.sim.simTrajectory i t) (us s.sim i).1) t0 ∧
      AtEnd (scen.logTrajectory i) (coast (s.sim.simTrajectory i t) (us s.sim i).1) (scen.logTrajectory i t0)) →
    (s'.sim.simTrajectory i t').valid = false

theorem NearestLogged.unique {log : Fin T → Pt ℝ} {q : ℝ × ℝ} {t u : Fin T} (h : NearestLogged log q t)
    (h' : NearestLogged log q u) : t = u := by
  rcases lt_trichotomy t u with hlt | he | hlt
  · exact absurd (h'.2.2 t hlt h.1) (not_lt.2 (h.2.1 u h'.1))
  · exact he
  · exact absurd (h.2.2 u hlt h'.1) (not_lt.2 (h'.2.1 t h.1))

/-- What happens instead: the agent marks its action invalid, but the environment does not look at that mark. The object stays
valid, and its position, heading and velocity become the placeholder -1. What is missing from the documented behaviour is
that the object becomes invalid. -/
theorem C75_end_of_route_partial {E : PlanEnv D Unit K P n T} {k : Nat} {ctrl : SimState ℝ n T → Fin n → Bool}
    {us : UpdateSpeed n T} {i : Fin n} {scen : SimState ℝ n T} (hD : DrivenBy E k ctrl (waypointUpdate true us) i scen)
    {split : K → Nat → List K} (hsplit : ∀ k m, (split k m).length = m) {s s' : PlanState Unit n T} {a : Act D}
    {rng : Option K} (hscen : SameScenario scen s.sim) (h : planStep E split s a rng = .ok s') {t t' : Fin T}
    (ht : (t : Int) = s.sim.timestep) (ht' : (t' : Int) = s.sim.timestep + 1)
    (hv : (s.sim.simTrajectory i t).valid = true) (hus : (us s.sim i).2 = true) (hfast : 1 < (us s.sim i).1)
    (hend : ∃ t0, NearestLogged (scen.logTrajectory i) (coast (s.sim.simTrajectory i t) (us s.sim i).1) t0 ∧
      AtEnd (scen.logTrajectory i) (coast (s.sim.simTrajectory i t) (us s.sim i).1) (scen.logTrajectory i t0)) :
    let p := s'.sim.simTrajectory i t'
    (waypointUpdate true us s.sim i).valid = false ∧
    p.valid = true ∧ p.x = -1 ∧ p.y = -1 ∧ p.yaw = -1 ∧ p.velX = -1 ∧ p.velY = -1 := by
  intro p
  obtain ⟨t0, hn, he⟩ := hend
  obtain ⟨⟨fx, fy, fyaw, fvx, fvy⟩, fv, -, -, -⟩ := driven_step hD hsplit hscen h ht ht'
  obtain ⟨t1, hn1, -, -, -, h4⟩ := waypoint_spec (inv := true) (us := us) ht hv hus (by rw [hscen.log]; exact ⟨t0, hn.1⟩)
  rw [hscen.log] at hn1 h4
  have := hn1.unique hn
  subst this
  have hu := h4 he rfl hfast
  rw [hu] at fx fy fyaw fvx fvy
  exact ⟨by rw [hu], fv hv, fx, fy, fyaw, fvx, fvy⟩

end

/-! ### C47: whole episodes -/

section
variable {D K P : Type} {n T : Nat} [NeZero T]

/-- In any episode of the planning environment, an object driven by an IDM agent (which does not invalidate at the end, as by
default) that starts present at or below the desired speed stays so, for any number of steps and whatever the others do. -/
theorem C47_episode {E : PlanEnv D Unit K P n T} {k : Nat} {ctrl : SimState ℝ n T → Fin n → Bool} {i : Fin n}
    {scen : SimState ℝ n T} {M : IdmParams} (hD : DrivenBy E k ctrl (waypointUpdate M.invalidateOnEnd (idmSpeeds M)) i scen)
    (ha : 0 ≤ M.maxAccel) (hd : 0 < M.desiredVel) (hδ : 1 ≤ M.delta) (hstep : 0.1 * M.maxAccel * M.delta ≤ M.desiredVel)
    (hinv : M.invalidateOnEnd = false)
    (hshape : M.lookaheadFromCurrentPosition = true ∨
      (0 < M.maxLookahead ∧ M.maxLookahead ≤ T))
    (hlog : ∃ t, (scen.logTrajectory i t).valid = true)
    {split : K → Nat → List K} (hsplit : ∀ k m, (split k m).length = m)
    {acts : List (Act D × Option K)} {s0 s1 : PlanState Unit n T} (hscen : SameScenario scen s0.sim)
    (h : planMany E split s0 acts = .ok s1) {t0 t1 : Fin T} (ht0 : (t0 : Int) = s0.sim.timestep)
    (ht1 : (t1 : Int) = s0.sim.timestep + acts.length) (hv : (s0.sim.simTrajectory i t0).valid = true)
    (hle : speedOf (s0.sim.simTrajectory i t0) ≤ M.desiredVel) :
    (s1.sim.simTrajectory i t1).valid = true ∧ speedOf (s1.sim.simTrajectory i t1) ≤ M.desiredVel := by
  refine (driven_many hD hsplit (fun p => p.valid = true ∧ speedOf p ≤ M.desiredVel) ?_ hscen h ht0 ht1
    ⟨hv, hle⟩).2
  rintro s t p hs ht ⟨hcv, hcs⟩ ⟨-, -, -, uvx, uvy⟩ uv -
  refine ⟨uv hcv, ?_⟩
  cases hr : idmUpdateSpeed M s i with
  | error e =>
    obtain ⟨h1, h2⟩ := (C48_fails_iff M s i).1 ⟨e, hr⟩
    rcases hshape with h3 | ⟨h3, h4⟩
    · rw [h1] at h3; cases h3
    · omega
  | ok r =>
    obtain ⟨hr0, hr2⟩ := C47_speed_nonneg hr
    have hr1 := C47_never_exceeds ha hd hδ hstep ht hcv hcs hr
    obtain ⟨w, -, h1, h2, -, -⟩ := waypoint_spec (inv := M.invalidateOnEnd) (us := idmSpeeds M) ht hcv
      (by simp only [idmSpeeds, hr]; exact hr2) (by rw [hs.log]; exact hlog)
    have hsp : idmSpeeds M s i = r := by simp only [idmSpeeds, hr]
    simp only [hsp] at h1 h2
    by_cases he : AtEnd (s.logTrajectory i) (coast (s.simTrajectory i t) r.1) (s.logTrajectory i w)
    · obtain ⟨-, -, e1, e2, -⟩ := h2 he hinv
      have : speedOf p = speedOf (s.simTrajectory i t) := by
        unfold speedOf
        rw [uvx.trans e1, uvy.trans e2]
      rw [this]; exact hcs
    · obtain ⟨-, -, e1, e2, -⟩ := h1 he
      have : speedOf p = r.1 := by
        unfold speedOf norm2
        rw [uvx.trans e1, uvy.trans e2]
        simp only [heading]
        have h : (r.1 * cos (s.simTrajectory i t).yaw) ^ 2 + (r.1 * sin (s.simTrajectory i t).yaw) ^ 2 = r.1 ^ 2 := by
          have h : (r.1 * cos (s.simTrajectory i t).yaw) ^ 2 + (r.1 * sin (s.simTrajectory i t).yaw) ^ 2 =
            r.1 ^ 2 * (sin (s.simTrajectory i t).yaw ^ 2 + cos (s.simTrajectory i t).yaw ^ 2) := by ring
          rw [h, Real.sin_sq_add_cos_sq, mul_one]
        rw [h, Real.sqrt_sq hr0]
      rw [this]; exact hr1

/-! ### C49 -/

/-- `ConstantSpeedPolicy(v)`: until an object reaches the end of its logged route, its speed after every step is exactly `|v|`. -/
theorem C49_policy {E : PlanEnv D Unit K P n T} {k : Nat} {v : ℝ} {i : Fin n} {scen : SimState ℝ n T}
    (hD : DrivenBy E k defaultControlFunc (waypointUpdate true (constantSpeedUpdate v)) i scen)
    {split : K → Nat → List K} (hsplit : ∀ k m, (split k m).length = m) {s s' : PlanState Unit n T} {a : Act D}
    {rng : Option K} (hscen : SameScenario scen s.sim) (h : planStep E split s a rng = .ok s') {t t' : Fin T}
    (ht : (t : Int) = s.sim.timestep) (ht' : (t' : Int) = s.sim.timestep + 1)
    (hv : (s.sim.simTrajectory i t).valid = true) {t0 : Fin T}
    (hn : NearestLogged (scen.logTrajectory i) (coast (s.sim.simTrajectory i t) v) t0)
    (hne : ¬ AtEnd (scen.logTrajectory i) (coast (s.sim.simTrajectory i t) v) (scen.logTrajectory i t0)) :
    (s'.sim.simTrajectory i t').valid = true ∧ speedOf (s'.sim.simTrajectory i t') = |v| := by
  obtain ⟨t1, h1, h2, h3, -⟩ := C76_follows_route hD hsplit hscen h ht ht' hv rfl ⟨t0, hn.1⟩
  have := h1.unique hn
  subst this
  exact ⟨h2, (h3 hne).2.2.2.2⟩

/-- The velocity the constant-speed actor keeps: the present one, or the given speed along the present heading. -/
noncomputable def cruiseVelocity (speed : Option ℝ) (p : Pt ℝ) : ℝ × ℝ :=
  match speed with
  | none => (p.velX, p.velY)
  | some v => (v * (heading p.yaw).1, v * (heading p.yaw).2)

theorem constantSpeedAction_state (ctrl : SimState ℝ n T → Fin n → Bool) (speed : Option ℝ) (s : SimState ℝ n T) {t : Fin T}
    (ht : (t : Int) = s.timestep) (i : Fin n) :
    let c := s.simTrajectory i t
    let v := cruiseVelocity speed c
    (constantSpeedAction stateDynamics ctrl speed s i).data =
      { x := c.x + v.1 * 0.1, y := c.y + v.2 * 0.1, yaw := c.yaw, velX := v.1, velY := v.2 } := by
  intro c v
  have h1 : ∀ f : Fin 2 → Pt ℝ, dynIndex f ((0 : Int) + 1) = f 1 := fun f => dynIndex_of_eq f (t := 1) (by simp)
  simp only [constantSpeedAction, stateDynamics, stateInverse, h1, constantSpeedNext, dynIndex_of_eq _ ht, Upd.asAction]
  cases speed <;> simp [v, cruiseVelocity, heading, c]

/-- The constant-speed actor with state dynamics: however many steps are taken, a controlled object moves on a straight line with
constant velocity and heading. Only this object's actions need come from the actor. -/
theorem C49_straight_line {cfg : EnvConfig} {scen s0 s1 : SimState ℝ n T} {acts : List (Fin n → Act (StateRow ℝ))}
    (E : Episode stateDynamics cfg scen s0 acts s1) {i : Fin n} (hc : IsControlled cfg s0 i)
    {ctrl : SimState ℝ n T → Fin n → Bool} {speed : Option ℝ}
    (hact : ∀ as b bs sm, acts = as ++ b :: bs → stepMany stateDynamics cfg s0 as = .ok sm →
      b i = constantSpeedAction stateDynamics ctrl speed sm i)
    {t0 t1 : Fin T} (ht0 : t0.val + 1 = cfg.initSteps) (ht1 : t1.val + 1 = cfg.initSteps + acts.length) :
    let p := s1.simTrajectory i t1
    let p0 := scen.logTrajectory i t0
    let v := cruiseVelocity speed p0
    p.x = p0.x + 0.1 * acts.length * v.1 ∧ p.y = p0.y + 0.1 * acts.length * v.2 ∧ p.yaw = p0.yaw ∧
      (0 < acts.length ∨ speed = none → p.velX = v.1 ∧ p.velY = v.2) := by
  intro p p0 v
  induction acts using List.reverseRecOn generalizing s1 t1 with
  | nil =>
    have hs := Except.ok.inj E.run
    have ht : t1 = t0 := Fin.ext (by simp at ht1; omega)
    have hp : p = p0 := by
      simp only [p, p0, ← hs, ht]
      rw [E.reset_data]
      simp only
      rw [if_pos (by omega)]
    rw [hp]
    refine ⟨by simp, by simp, rfl, ?_⟩
    rintro (h | h)
    · simp at h
    · simp [v, h, cruiseVelocity]
  | append_singleton as a ih =>
    obtain ⟨sm, Em, hrest⟩ := E.prefix
    have hts := Em.timestep_eq
    simp only [List.length_append, List.length_singleton] at ht1
    have hlt : t1.val - 1 < T := by have := t1.isLt; omega
    obtain ⟨s', hst, he⟩ := stepMany_cons_ok hrest
    have hs := Except.ok.inj he
    subst hs
    have hT : cfg.initSteps ≤ T := by have := E.fits; omega
    have hw := E.warm
    have hprev := ih Em (fun as' b bs sm h1 h2 => hact as' b (bs ++ [a]) sm (by rw [h1]; simp) h2) (t1 := ⟨t1.val - 1, hlt⟩)
      (by simp only; omega)
    have ht : ((⟨t1.val - 1, hlt⟩ : Fin T) : Int) = sm.timestep := by rw [hts]; simp only; omega
    have hmove := C68_executes_command hst hw hT (t' := t1) ht (by rw [hts]; omega) i ((Em.isControlled_iff i).2 hc)
    have ha := hact as a [] sm rfl Em.run
    have hd := constantSpeedAction_state ctrl speed sm ht i
    rw [ha, hd] at hmove
    obtain ⟨hx, hy, hyaw, hvel⟩ := hprev
    simp only at hmove hx hy hyaw hvel
    have hv : cruiseVelocity speed (sm.simTrajectory i ⟨t1.val - 1, hlt⟩) = v := by
      cases hsp : speed with
      | none =>
        obtain ⟨e1, e2⟩ := hvel (.inr hsp)
        have : v = (v.1, v.2) := rfl
        rw [this, ← e1, ← e2]
        simp [cruiseVelocity]
      | some w => simp only [v, hsp, cruiseVelocity, hyaw, p0]
    rw [hv] at hmove
    obtain ⟨m1, m2, m3, m4, m5⟩ := hmove
    refine ⟨?_, ?_, m3.trans hyaw, fun _ => ⟨m4, m5⟩⟩
    · rw [show p.x = _ from m1, hx]; simp only [List.length_append, List.length_singleton]; push_cast; ring
    · rw [show p.y = _ from m2, hy]; simp only [List.length_append, List.length_singleton]; push_cast; ring

end

/-! ### Concrete cases -/

/-- An environment with one sim agent. -/
theorem drivenBy_push {ctrl : SimState ℝ 2 3 → Fin 2 → Bool} {upd : SimState ℝ 2 3 → Fin 2 → Upd ℝ} {i : Fin 2}
    {scen : SimState ℝ 2 3} (hc : ∀ s, SameScenario scen s → ctrl s i = true) (ha : ¬ StartsOverlapping scen.logTrajectory i) :
    DrivenBy (pushEnv [simAgent ctrl upd]) 0 ctrl upd i scen where
  agent := rfl
  params := rfl
  claims := hc
  later := by
    intro k' a hk h
    obtain ⟨k, rfl⟩ : ∃ k, k' = k + 1 := ⟨k' - 1, by omega⟩
    simp [pushEnv] at h
  apart := ha

theorem push_episode (agent : SimAgent Unit Unit Unit 2 3) (scen : SimState ℝ 2 3) :
    ∃ s0 s1, planReset (pushEnv [agent]) (fun _ m => List.replicate m ()) scen none = .ok s0 ∧
      SameScenario scen s0.sim ∧ s0.sim.timestep = 1 ∧ s0.sim.simTrajectory = (fun i t => if t.val < 2 then scen.logTrajectory i t
        else invalidPt) ∧
      planStep (pushEnv [agent]) (fun _ m => List.replicate m ()) s0 { data := ⟨3, 4, 0, 0, 0⟩, valid := true } none = .ok s1 := by
  obtain ⟨s0, hs0⟩ : ∃ s0, planReset (pushEnv [agent]) (fun _ m => List.replicate m ()) scen none = .ok s0 :=
    ⟨_, reset_push _ _⟩
  have hs0' := hs0
  rw [reset_push] at hs0'
  have he := Except.ok.inj hs0'
  refine ⟨s0, ?_⟩
  rw [planStep_eq, if_neg (by simp [pushEnv, ← he])]
  exact ⟨_, hs0, by rw [← he]; exact ⟨rfl, rfl, rfl, rfl, rfl⟩, by rw [← he], by rw [← he], rfl⟩

/-- The SDC and a parked car 10 m away. -/
noncomputable def stopScen : SimState ℝ 2 3 := { carScen with logTrajectory := fun i _ => ptAt (10 * i.val) 0 0 0 0 }

theorem stop_apart (i : Fin 2) : ¬ StartsOverlapping stopScen.logTrajectory i := by
  rintro ⟨j, hj, p, ⟨u, v, hu, hv, hp⟩, ⟨u', v', hu', hv', hp'⟩⟩
  have h := congrArg Prod.fst (hp.symm.trans hp')
  simp only [stopScen, ptAt, pointAt, heading, leftOf, Real.cos_zero, Real.sin_zero] at h hu hu'
  rw [abs_lt] at hu hu'
  norm_num at hu hu'
  fin_cases i <;> fin_cases j <;> first | exact absurd rfl hj | (norm_num at h; linarith [hu.1, hu.2, hu'.1, hu'.2])

theorem car_claims (scen : SimState ℝ 2 3) (h : scen.objectMetadata = carScen.objectMetadata) :
    ∀ s, SameScenario scen s → defaultControlFunc s 1 = true := by
  intro s hs
  unfold defaultControlFunc
  rw [hs.objects, h]
  rfl

/-- The parked car is always at the end of its route. -/
theorem stop_atEnd (q : ℝ × ℝ) : NearestLogged (stopScen.logTrajectory 1) q 0 ∧
    AtEnd (stopScen.logTrajectory 1) q (stopScen.logTrajectory 1 0) := by
  refine ⟨⟨rfl, fun u _ => le_rfl, fun u hu => absurd hu (by simp)⟩, .inl ⟨2, ⟨rfl, fun u _ => by omega⟩, ?_⟩⟩
  simp [stopScen, posOf, dist2, ptAt]
  norm_num

/-- `ConstantSpeedPolicy(5)` and a parked car: it is moved to (-1, -1) and stays valid. -/
theorem C75_violated : ¬ EndInvalidates (StateRow ℝ) Unit Unit 2 3 := by
  intro hall
  obtain ⟨s0, s1, -, hsc, hts, htr, hst⟩ := push_episode (constantSpeedPolicy 5) stopScen
  have hD := drivenBy_push (upd := waypointUpdate true (constantSpeedUpdate 5)) (car_claims stopScen rfl) (stop_apart 1)
  have ht : ((1 : Fin 3) : Int) = s0.sim.timestep := by rw [hts]; rfl
  have ht' : ((2 : Fin 3) : Int) = s0.sim.timestep + 1 := by rw [hts]; rfl
  have hv : (s0.sim.simTrajectory 1 1).valid = true := by rw [htr]; rfl
  have h1 := hall _ 0 _ _ 1 _ hD (fun _ m => List.replicate m ()) (by simp) s0 s1 _ none hsc hst 1 2 ht ht' hv rfl
    (by norm_num [constantSpeedUpdate]) ⟨0, stop_atEnd _⟩
  have h2 := (C75_end_of_route_partial hD (split := fun _ m => List.replicate m ()) (by simp) hsc hst ht ht' hv rfl
    (by norm_num [constantSpeedUpdate]) ⟨0, stop_atEnd _⟩).2.1
  rw [h1] at h2
  cases h2

/-- C78: a frozen car that would have moved in the log. -/
example : ∃ s0 s1, SameScenario carScen s0.sim ∧
    planMany (pushEnv [simAgent defaultControlFunc frozenUpdate]) (fun _ m => List.replicate m ()) s0
      [({ data := ⟨3, 4, 0, 0, 0⟩, valid := true }, none)] = .ok s1 ∧ (s1.sim.simTrajectory 1 2).y = 1 ∧
    (carScen.logTrajectory 1 2).y = 2 := by
  obtain ⟨s0, s1, -, hsc, hts, htr, hst⟩ := push_episode (simAgent defaultControlFunc frozenUpdate) carScen
  have hm : planMany (pushEnv [simAgent defaultControlFunc frozenUpdate]) (fun _ m => List.replicate m ()) s0
      [({ data := ⟨3, 4, 0, 0, 0⟩, valid := true }, none)] = .ok s1 := by
    unfold planMany
    rw [hst]
    rfl
  refine ⟨s0, s1, hsc, hm, ?_, by norm_num [carScen, ptAt]⟩
  have h := C78_frozen (drivenBy_push (car_claims carScen rfl) (cars_apart 1)) (split := fun _ m => List.replicate m ())
    (by simp) hsc hm (t0 := 1) (t1 := 2) (by rw [hts]; rfl) (by rw [hts]; rfl)
  rw [h.2.1, htr]
  simp [carScen, ptAt]

/-- C47: the default IDM agent on the same scene, at 10 m/s in the log. -/
example : ∃ s0 s1, SameScenario carScen s0.sim ∧
    planMany (pushEnv [idmAgent {}]) (fun _ m => List.replicate m ()) s0
      [({ data := ⟨3, 4, 0, 0, 0⟩, valid := true }, none)] = .ok s1 ∧ (s1.sim.simTrajectory 1 2).valid = true ∧
    speedOf (s1.sim.simTrajectory 1 2) ≤ 30 := by
  obtain ⟨s0, s1, -, hsc, hts, htr, hst⟩ := push_episode (idmAgent {}) carScen
  have hm : planMany (pushEnv [idmAgent {}]) (fun _ m => List.replicate m ()) s0
      [({ data := ⟨3, 4, 0, 0, 0⟩, valid := true }, none)] = .ok s1 := by
    unfold planMany
    rw [hst]
    rfl
  refine ⟨s0, s1, hsc, hm, ?_⟩
  refine C47_episode (M := {}) (drivenBy_push (car_claims carScen rfl) (cars_apart 1)) (by norm_num) (by norm_num)
    (by norm_num) (by norm_num) rfl (.inl rfl) ⟨0, rfl⟩ (split := fun _ m => List.replicate m ())
    (by simp) hsc hm (t0 := 1) (t1 := 2) (by rw [hts]; rfl) (by rw [hts]; rfl) (by rw [htr]; rfl) ?_
  rw [htr]
  simp [carScen, ptAt, speedOf, norm2]
  norm_num

/-- C49 and C76: the same car at a constant 5 m/s is not at the end of its route. -/
example : ∃ s0 s1, SameScenario carScen s0.sim ∧
    planStep (pushEnv [constantSpeedPolicy 5]) (fun _ m => List.replicate m ()) s0
      { data := ⟨3, 4, 0, 0, 0⟩, valid := true } none = .ok s1 ∧ speedOf (s1.sim.simTrajectory 1 2) = 5 := by
  obtain ⟨s0, s1, -, hsc, hts, htr, hst⟩ := push_episode (constantSpeedPolicy 5) carScen
  refine ⟨s0, s1, hsc, hst, ?_⟩
  have hq : coast (s0.sim.simTrajectory 1 1) 5 = (10.75, 1) := by
    rw [htr]
    simp [coast, carScen, ptAt, speedOf, norm2, heading]
    norm_num
  have hd : ∀ t : Fin 3, dist2 (posOf (carScen.logTrajectory 1 t)) (10.75, 1) = √(0.5625 + ((t.val : ℝ) - 1) ^ 2) := by
    intro t
    simp [dist2, posOf, carScen, ptAt]
    norm_num
  have hd1 : dist2 (posOf (carScen.logTrajectory 1 1)) (10.75, 1) = √0.5625 := by rw [hd]; norm_num
  have h := C49_policy (v := 5) (drivenBy_push (car_claims carScen rfl) (cars_apart 1)) (split := fun _ m => List.replicate m ())
    (by simp) hsc hst (t := 1) (t' := 2) (by rw [hts]; rfl) (by rw [hts]; rfl) (by rw [htr]; rfl) (t0 := 1)
    (by
      rw [hq]
      refine ⟨rfl, fun u _ => ?_, fun u hu _ => ?_⟩
      · rw [hd1, hd]
        apply Real.sqrt_le_sqrt
        nlinarith [sq_nonneg ((u.val : ℝ) - 1)]
      · have hu0 : u = 0 := by omega
        subst hu0
        rw [hd1, hd]
        apply Real.sqrt_lt_sqrt (by norm_num)
        norm_num)
    (by
      rw [hq]
      rintro (⟨t, ht, hlt⟩ | hfar)
      · have ht2 : t = 2 := by
          have h1 := ht.2 2 rfl
          omega
        subst ht2
        simp [dist2, posOf, carScen, ptAt] at hlt
        norm_num at hlt
      · rw [hd1] at hfar
        have : √(0.5625 : ℝ) < 5 := by
          rw [Real.sqrt_lt' (by norm_num)]; norm_num
        linarith)
  rw [h.2]
  norm_num

/-- C49, the actor: one step of the SDC of the same scene, keeping its logged velocity (0, 10). -/
example : ∃ s0 s1 acts, Episode stateDynamics (pushEnv (n := 2) (T := 3) []).cfg carScen s0 acts s1 ∧ acts.length = 1 ∧
    (s1.simTrajectory 0 2).x = 0 ∧ (s1.simTrajectory 0 2).y = 2 := by
  obtain ⟨s0, hr, htr⟩ : ∃ s0, reset (pushEnv (n := 2) (T := 3) []).cfg carScen = .ok s0 ∧
      s0.objectMetadata = carScen.objectMetadata := by
    rw [reset_eq]
    simp only [pushEnv]
    norm_num
  obtain ⟨s0', s1, hE⟩ := episode_exists (T := 3) (stateDynamics (n := 2) (α := ℝ)) (pushEnv (n := 2) (T := 3) []).cfg carScen
    [constantSpeedAction stateDynamics (fun _ _ => true) none s0] rfl (by decide)
    (by simp [pushEnv]) (by decide)
  have hs0 := Except.ok.inj (hr.symm.trans hE.start)
  refine ⟨s0', s1, _, hE, rfl, ?_⟩
  have h := C49_straight_line hE (i := 0) (ctrl := fun _ _ => true) (speed := none)
    (by rw [← hs0]; simp [IsControlled, pushEnv, htr, carScen])
    (by
      intro as b bs sm h1 h2
      cases as with
      | nil =>
        simp only [List.nil_append, List.cons.injEq] at h1
        rw [← h1.1, ← Except.ok.inj h2, ← hs0]
      | cons x xs => simp at h1)
    (t0 := 1) (t1 := 2) rfl rfl
  obtain ⟨h1, h2, -, -⟩ := h
  rw [h1, h2]
  simp [carScen, ptAt, cruiseVelocity]
  norm_num

end Waymax
