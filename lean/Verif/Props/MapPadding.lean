import Verif.Spec.MapPadding
import Verif.Lemmas.RolloutRel
import Verif.Props.Roadgraph
import Verif.Props.Metrics
import Verif.Props.Observation
import Verif.Props.Planning
/-
C149 and C150: padding the road map and the SDC paths.
-/

namespace Waymax

/-! ### Minima over padded arrays -/

theorem argmin_append_top {β : Type} [LinearOrder β] {xs pad : List (WithTop β)} (hne : xs ≠ []) (hp : ∀ x ∈ pad, x = ⊤) :
    argmin (xs ++ pad) = argmin xs := by
  obtain ⟨v, hv, h1, h2⟩ := argmin_spec hne
  obtain ⟨w, hw, g1, g2⟩ := argmin_spec (xs := xs ++ pad) (by simp [hne])
  have hlt := argmin_lt hne
  rcases lt_trichotomy (argmin (xs ++ pad)) (argmin xs) with h | h | h
  · have := h2 _ h w (by rw [← hw, List.getElem?_append_left (by omega)])
    exact absurd (g1 v (List.mem_append_left _ (List.mem_of_getElem? hv))) (not_le.2 this)
  · exact h
  · have hvw := g2 _ h v (by rw [List.getElem?_append_left hlt]; exact hv)
    have hmem := List.mem_of_getElem? hw
    rcases List.mem_append.1 hmem with hm | hm
    · exact absurd (h1 w hm) (not_le.2 hvw)
    · rw [hp w hm] at hvw; exact absurd hvw (not_lt.2 le_top)

theorem listMin_append_top {β : Type} [LinearOrder β] {xs pad : List (WithTop β)} (hp : ∀ x ∈ pad, x = ⊤) :
    listMin (xs ++ pad) = listMin xs := by
  induction xs with
  | nil =>
    induction pad with
    | nil => rfl
    | cons a pad ih =>
      have : listMin (a :: pad) = min a (listMin pad) := rfl
      rw [List.nil_append, this, hp a List.mem_cons_self, min_eq_right le_top]
      exact ih fun x hx => hp x (List.mem_cons_of_mem _ hx)
  | cons a xs ih =>
    change min a (listMin (xs ++ pad)) = min a (listMin xs)
    rw [ih]

theorem listMin_append_gen {β : Type} [LinearOrder β] (xs ys : List (WithTop β)) :
    listMin (xs ++ ys) = min (listMin xs) (listMin ys) := by
  induction xs with
  | nil => change listMin ys = min ⊤ (listMin ys); rw [min_eq_right le_top]
  | cons a xs ih =>
    change min a (listMin (xs ++ ys)) = min (min a (listMin xs)) (listMin ys)
    rw [ih, min_assoc]

theorem orInf_invalid {b : Bool} {d : ℝ} (h : b = false) : orInf b d = ⊤ := by
  rw [h]; simp only [orInf, Bool.false_eq_true, if_false]

/-! ### Road edges -/

theorem signedDistance_padded {rg rg' : List (RgPoint ℝ)} (h : RoadPadded rg rg') (hne : rg ≠ []) (qx qy qz z : ℝ) :
    signedDistanceToNearestRoadEdgePoint rg' qx qy qz z = signedDistanceToNearestRoadEdgePoint rg qx qy qz z := by
  obtain ⟨pad, rfl, hp⟩ := h
  unfold signedDistanceToNearestRoadEdgePoint
  have hmin : ∀ f : RgPoint ℝ → ℝ, argmin ((rg ++ pad).map fun p => orInf (p.valid && isRoadEdge p.type) (f p)) =
      argmin (rg.map fun p => orInf (p.valid && isRoadEdge p.type) (f p)) := by
    intro f
    rw [List.map_append]
    refine argmin_append_top (by simpa using hne) fun x hx => ?_
    obtain ⟨p, hp', rfl⟩ := List.mem_map.1 hx
    exact orInf_invalid (by rw [hp p hp']; rfl)
  have hlt : ∀ f : RgPoint ℝ → ℝ, argmin (rg.map fun p => orInf (p.valid && isRoadEdge p.type) (f p)) < rg.length := by
    intro f
    simpa using argmin_lt (xs := rg.map fun p => orInf (p.valid && isRoadEdge p.type) (f p)) (by simpa using hne)
  simp only [hmin]
  rw [List.getElem?_append_left (hlt _), List.getElem?_append_left (lt_of_le_of_lt (Nat.sub_le _ _) (hlt _))]

/-! ### Paths -/

theorem noPathPoints_padded {ps ps' : List (SdcPath ℝ)} (h : PathsPadded ps ps') : noPathPoints ps = false ∧ noPathPoints ps' = false := by
  obtain ⟨hne, mid, pad, rfl, hf, -⟩ := h
  cases hf with
  | nil => exact absurd rfl hne
  | @cons p p' ps mid hp _ =>
    obtain ⟨-, h1, pp, h2, -⟩ := hp
    have e1 : p.points.isEmpty = false := by simpa using h1
    have e2 : p'.points.isEmpty = false := by rw [h2]; simp [h1]
    unfold noPathPoints
    simp [List.all_cons, e1, e2]

theorem minOverPaths_padded {ps ps' : List (SdcPath ℝ)} (h : PathsPadded ps ps') {d : SdcPath ℝ → PathPoint ℝ → WithTop ℝ}
    (hd : ∀ p p' q, p'.onRoute = p.onRoute → d p' q = d p q) (hinv : ∀ p q, q.valid = false → d p q = ⊤) :
    minOverPaths ps' d = minOverPaths ps d ∧
      ∀ ps0, argmin ((ps0 : List (WithTop ℝ)) ++ (ps'.map fun p => listMin (p.points.map fun q => d p q))) = 
        argmin (ps0 ++ ps.map fun p => listMin (p.points.map fun q => d p q)) := by
  obtain ⟨hne, mid, pad, rfl, hf, hp⟩ := h
  have hrow : ∀ p p', PathPadded p p' → listMin (p'.points.map fun q => d p' q) = listMin (p.points.map fun q => d p q) := by
    rintro p p' ⟨h1, -, pp, h2, h3⟩
    rw [h2, List.map_append]
    have : (p.points.map fun q => d p' q) = p.points.map fun q => d p q := List.map_congr_left fun q _ => hd p p' q h1
    rw [this]
    refine listMin_append_top fun x hx => ?_
    obtain ⟨q, hq, rfl⟩ := List.mem_map.1 hx
    exact hinv _ _ (h3 q hq)
  have hpad : ∀ p ∈ pad, listMin (p.points.map fun q => d p q) = ⊤ := by
    intro p hp'
    rw [← List.nil_append (p.points.map fun q => d p q), listMin_append_top]
    · rfl
    · intro x hx
      obtain ⟨q, hq, rfl⟩ := List.mem_map.1 hx
      exact hinv _ _ (hp p hp' q hq)
  have hmid : (mid.map fun p => listMin (p.points.map fun q => d p q)) = ps.map fun p => listMin (p.points.map fun q => d p q) := by
    have : ∀ {ps mid : List (SdcPath ℝ)}, List.Forall₂ PathPadded ps mid →
        (mid.map fun p => listMin (p.points.map fun q => d p q)) = ps.map fun p => listMin (p.points.map fun q => d p q) := by
      intro ps mid hf
      induction hf with
      | nil => rfl
      | cons h1 _ ih => rw [List.map_cons, List.map_cons, ih, hrow _ _ h1]
    exact this hf
  constructor
  · have hflat : ∀ l : List (SdcPath ℝ), minOverPaths l d = listMin (l.map fun p => listMin (p.points.map fun q => d p q)) := by
      intro l
      unfold minOverPaths
      induction l with
      | nil => rfl
      | cons p l ih =>
        rw [List.flatMap_cons, listMin_append_gen, ih]
        rfl
    rw [hflat, hflat, List.map_append, hmid]
    refine listMin_append_top fun x hx => ?_
    obtain ⟨p, hp', rfl⟩ := List.mem_map.1 hx
    exact hpad p hp'
  · intro ps0
    rw [List.map_append, hmid, ← List.append_assoc]
    refine argmin_append_top (by simp [hne]) fun x hx => ?_
    obtain ⟨p, hp', rfl⟩ := List.mem_map.1 hx
    exact hpad p hp'

theorem arclength_padded {p p' : SdcPath ℝ} (h : PathPadded p p') (xy : ℝ × ℝ) : arclengthForPts xy p' = arclengthForPts xy p := by
  obtain ⟨-, hne, pp, h2, h3⟩ := h
  unfold arclengthForPts
  have hmin : argmin (p'.points.map fun q => orInf q.valid (pathDist xy q)) = argmin (p.points.map fun q => orInf q.valid (pathDist xy q)) := by
    rw [h2, List.map_append]
    refine argmin_append_top (by simpa using hne) fun x hx => ?_
    obtain ⟨q, hq, rfl⟩ := List.mem_map.1 hx
    exact orInf_invalid (h3 q hq)
  have hlt : argmin (p.points.map fun q => orInf q.valid (pathDist xy q)) < p.points.length := by
    simpa using argmin_lt (xs := p.points.map fun q => orInf q.valid (pathDist xy q)) (by simpa using hne)
  rw [hmin, h2, List.getElem?_append_left hlt]

section
variable {n T : Nat} [NeZero T] {s s' : SimState ℝ n T}

/-! ### C149: the metrics -/

/-- Off-road: the nearest road edge and its predecessor are the same points. -/
theorem C149_offroad (h : MapPadded s s') : offroadMetric s' = offroadMetric s := by
  obtain ⟨hr, -⟩ := h
  rcases hr with rfl | ⟨a, b, ha, rfl, hne, hp⟩
  · rfl
  · have hb : b ≠ [] := by obtain ⟨pad, rfl, -⟩ := hp; simp [hne]
    unfold offroadMetric
    simp only [ha]
    cases a with
    | nil => exact absurd rfl hne
    | cons a as =>
      cases b with
      | nil => exact absurd rfl hb
      | cons b bs =>
        have hoff : isOffroad (b :: bs) = isOffroad (a :: as) := by
          funext p
          unfold isOffroad
          simp only [signedDistance_padded hp hne]
        change (Except.ok fun i => _ : Except Err (Fin n → MetricResult)) = Except.ok fun i => _
        rw [hoff]

theorem C149_wrong_way (h : MapPadded s s') : wrongWayMetric s' = wrongWayMetric s := by
  obtain ⟨-, hp⟩ := h
  rcases hp with rfl | ⟨a, b, ha, rfl, hp⟩
  · rfl
  · unfold wrongWayMetric
    simp only [ha, (noPathPoints_padded hp).1, (noPathPoints_padded hp).2]
    have hmin := (minOverPaths_padded hp (d := fun _ p => orInf p.valid (pathDist (sdcXyCurrent s) p)) (fun _ _ _ _ => rfl)
      fun _ q hq => orInf_invalid hq).1
    change (if _ then _ else match minOverPaths b fun _ p => orInf p.valid (pathDist (sdcXyCurrent s) p) with | ⊤ => _ | (d : ℝ) => _) = _
    rw [hmin] <;> rfl

theorem C149_off_route (h : MapPadded s s') : offRouteMetric s' = offRouteMetric s := by
  obtain ⟨-, hp⟩ := h
  rcases hp with rfl | ⟨a, b, ha, rfl, hp⟩
  · rfl
  · have hd : ∀ (on : Bool → Bool) (v : Bool) (xy : ℝ × ℝ),
        minOverPaths b (fun path p => orInf (on path.onRoute && (v && p.valid)) (pathDist xy p)) =
          minOverPaths a fun path p => orInf (on path.onRoute && (v && p.valid)) (pathDist xy p) := fun on v xy =>
      (minOverPaths_padded hp (fun p p' q hq => by rw [hq]) fun p q hq => orInf_invalid (by rw [hq]; simp)).1
    have h1 := hd id (sdcValidCurrent s) (sdcXyCurrent s)
    have h2 := hd (! ·) (sdcValidCurrent s) (sdcXyCurrent s)
    simp only [id] at h1 h2
    unfold offRouteMetric
    simp only [ha, (noPathPoints_padded hp).1, (noPathPoints_padded hp).2, Bool.false_eq_true, if_false]
    change (match minOverPaths b fun path p => orInf (path.onRoute && (sdcValidCurrent s && p.valid)) (pathDist (sdcXyCurrent s) p) with
      | ⊤ => _
      | (on : ℝ) => Except.ok ({ value := if on > 5 ∨ exceedsByTwo on (minOverPaths b fun path p =>
          orInf (!path.onRoute && (sdcValidCurrent s && p.valid)) (pathDist (sdcXyCurrent s) p)) = true then on else 0, valid := true } :
          MetricResult)) = _
    rw [h1, h2] <;> rfl

/-- Progression: the same reference path, and on it the same nearest points. -/
theorem C149_progression (h : MapPadded s s') : progressionMetric s' = progressionMetric s := by
  obtain ⟨-, hp⟩ := h
  rcases hp with rfl | ⟨a, b, ha, rfl, hp⟩
  · rfl
  · let d : SdcPath ℝ → PathPoint ℝ → WithTop ℝ := fun path p =>
      if sdcValidCurrent s then orInf (p.valid && path.onRoute) (pathDist (sdcXyCurrent s) p) else ⊤
    have hm := minOverPaths_padded hp (d := d) (fun p p' q hq => by simp only [d, hq])
      fun p q hq => by simp only [d]; split; exacts [orInf_invalid (by rw [hq]; rfl), rfl]
    have hmin := hm.1
    have harg := hm.2 []
    rw [List.nil_append, List.nil_append] at harg
    set i := argmin (a.map fun p => listMin (p.points.map fun q => d p q)) with hi
    have hlt : i < a.length := by
      have := argmin_lt (xs := a.map fun p => listMin (p.points.map fun q => d p q)) (by simpa using hp.1)
      simpa using this
    have href : ∃ r r', a[i]? = some r ∧ b[i]? = some r' ∧ PathPadded r r' := by
      obtain ⟨-, mid, pad, rfl, hf, -⟩ := hp
      have hl := hf.length_eq
      rw [List.getElem?_append_left (by omega)]
      exact ⟨a[i], mid[i], List.getElem?_eq_getElem _, List.getElem?_eq_getElem _, (List.forall₂_iff_get.1 hf).2 i hlt (by omega)⟩
    obtain ⟨r, r', hr, hr', hrr⟩ := href
    unfold progressionMetric
    simp only [ha, (noPathPoints_padded hp).1, (noPathPoints_padded hp).2, Bool.false_eq_true, if_false]
    change (match b[argmin (b.map fun p => listMin (p.points.map fun q => d p q))]? with
      | none => _
      | some ref => match minOverPaths b d with | ⊤ => _ | (_ : ℝ) => _) =
      (match a[i]? with | none => _ | some ref => match minOverPaths a d with | ⊤ => _ | (_ : ℝ) => _)
    rw [harg, hr, hr', hmin]
    simp only [arclength_padded hrr]
    rfl

/-- All built-in metrics. -/
theorem C149_metrics (h : MapPadded s s') : ∀ e ∈ builtinMetrics (n := n) (T := T), e.2 s' = e.2 s := by
  have h1 := C149_offroad h
  have h2 := C149_wrong_way h
  have h3 := C149_progression h
  have h4 := C149_off_route h
  intro e he
  simp only [builtinMetrics, List.mem_cons, List.not_mem_nil, or_false] at he
  rcases he with rfl | rfl | rfl | rfl | rfl | rfl | rfl
  · cases h; rfl
  · cases h; rfl
  · simp only [h1]
  · cases h; rfl
  · simp only [h2]
  · simp only [h3]
  · simp only [h4]

/-- The metrics dictionary of the environment, for every list of metrics. -/
theorem C149_env_metrics (names : List String) (h : MapPadded s s') :
    envMetrics builtinMetrics names s' = envMetrics builtinMetrics names s := by
  unfold envMetrics runMetrics
  have : ∀ name, (builtinMetrics (n := n) (T := T)).get? name = none ∨
      ∃ m, (builtinMetrics (n := n) (T := T)).get? name = some m ∧ m s' = m s := by
    intro name
    cases hm : (builtinMetrics (n := n) (T := T)).get? name with
    | none => exact .inl rfl
    | some m =>
      refine .inr ⟨m, rfl, ?_⟩
      unfold Dict.get? at hm
      rw [Option.map_eq_some_iff] at hm
      obtain ⟨e, he, rfl⟩ := hm
      exact C149_metrics h e (List.mem_of_find?_eq_some he)
  congr 1
  funext d name
  rcases this name with hn | ⟨m, hm, he⟩
  · simp only [hn]
  · simp only [hm, he]

/-- Rewards. -/
theorem C149_reward {D : Type} (cfg : EnvConfig) (computeReward : Bool) (rewards : Dict ℝ) (a : Fin n → Act D) (h : MapPadded s s') :
    envReward builtinMetrics cfg computeReward rewards s' a = envReward builtinMetrics cfg computeReward rewards s a := by
  have hm := C149_env_metrics (rewards.map Prod.fst) h
  have ho : s'.objectMetadata = s.objectMetadata := by cases h; rfl
  unfold envMetrics at hm
  unfold envReward linearReward
  rw [ho, hm]

omit [NeZero T] in
theorem C149_reset (cfg : EnvConfig) (h : MapPadded s s') : Both MapPadded (reset cfg s) (reset cfg s') := by
  obtain ⟨h1, h2⟩ := h
  rw [reset_eq, reset_eq]
  split
  · split
    · exact .ok (.mk h1 h2)
    · exact .error
  · exact .error

theorem C149_step {D : Type} (d : DynamicsModel ℝ D n) (cfg : EnvConfig) (h : MapPadded s s') (a : Fin n → Act D) :
    Both MapPadded (step d cfg s a) (step d cfg s' a) := by
  cases h with
  | @mk rg' ps' h1 h2 =>
  have hm' : envControlMask cfg { s with roadgraphPoints := rg', sdcPaths := ps' } = envControlMask cfg s := rfl
  unfold step
  rw [hm']
  cases envControlMask cfg s with
  | error e => exact .error
  | ok m => exact .ok (.mk h1 h2)

/-- Episodes: the same simulated trajectories, with the padding carried along. -/
theorem C149_episode {D : Type} (d : DynamicsModel ℝ D n) (cfg : EnvConfig) (h : MapPadded s s') (as : List (Fin n → Act D)) :
    Both MapPadded (reset cfg s >>= fun s0 => stepMany d cfg s0 as) (reset cfg s' >>= fun s0 => stepMany d cfg s0 as) := by
  have key : ∀ (as : List (Fin n → Act D)) (x x' : SimState ℝ n T), MapPadded x x' →
      Both MapPadded (stepMany d cfg x as) (stepMany d cfg x' as) := by
    intro as
    induction as with
    | nil => exact fun x x' hx => .ok hx
    | cons a as ih => exact fun x x' hx => (C149_step d cfg hx a).bind ih
  exact (C149_reset cfg h).bind (key as)

/-- Rollouts with any actor that does not look at the map beyond its valid points: all outputs are equal. -/
theorem C149_rollout {D X K P : Type} (d : DynamicsModel ℝ D n) (cfg : EnvConfig) (names : List String) (computeReward : Bool)
    (rewards : Dict ℝ) {A : Actor (SimState ℝ n T) (Fin n → Act D) X K P (Fin n → Bool)}
    (hinit : ∀ s s' k, MapPadded s s' → A.init k s' = A.init k s)
    (hsel : ∀ s s' p x k, MapPadded s s' → A.selectAction p s' x k = A.selectAction p s x k)
    (split : K → K × K) (params : P) (zeros : (Fin n → Act D) → Fin n → Act D) (h : MapPadded s s') (rng : K) (numSteps : Nat) :
    Both (List.Forall₂ SameButMap)
      (rollout (baseEnv d cfg (envMetrics builtinMetrics names) (envReward builtinMetrics cfg computeReward rewards)) A split params
        zeros s rng numSteps)
      (rollout (baseEnv d cfg (envMetrics builtinMetrics names) (envReward builtinMetrics cfg computeReward rewards)) A split params
        zeros s' rng numSteps) := by
  have hsame : ∀ {β : Type} (x : Except Err β), Both (fun a b => b = a) x x := by
    intro β x
    cases x with
    | ok a => exact .ok rfl
    | error e => exact .error
  refine (rollout_related (relS := MapPadded) (relA := fun a a' => a' = a) (relO := MapPadded) (relM := fun m m' => m' = m)
    (relR := fun r r' => r' = r) (relX := fun x x' => x' = x) (fun s s' k hs => hinit s s' k hs) (fun s s' x x' k hs hx => ?_)
    (C149_reset cfg h) (fun s s' a a' hs ha => ?_) (fun s s' hs => hs) (fun s s' hs => ?_) (fun s s' a a' hs ha => ?_)
    (fun a a' ha => congrArg zeros ha) split rng numSteps).mono
    fun l l' hl => hl.imp fun e e' he => ⟨he.1, he.2.1, he.2.2.1, he.2.2.2.1, he.2.2.2.2⟩
  · subst hx
    rw [hsel s s' _ _ _ hs]
    exact ⟨rfl, rfl⟩
  · subst ha; exact C149_step d cfg hs a'
  · change Both _ (envMetrics builtinMetrics names s) (envMetrics builtinMetrics names s')
    rw [C149_env_metrics names hs]; exact hsame _
  · subst ha
    change Both _ (envReward builtinMetrics cfg computeReward rewards s a') (envReward builtinMetrics cfg computeReward rewards s' a')
    rw [C149_reward cfg computeReward rewards a' hs]; exact hsame _

/-- The expert does not look at the map, so it is such an actor. -/
theorem C149_expert {D : Type} (d : DynamicsModel ℝ D n) (h : MapPadded s s') : inferExpertAction s' d = inferExpertAction s d := by
  cases h; rfl

/-! ### C149: the planning environment -/

section
variable {D X K P : Type}

/-- The sim agents supplied with the simulator. -/
theorem C149_agents : AgentMapFree (simAgent (K := K) (P := P) (n := n) (T := T) defaultControlFunc frozenUpdate) ∧
    (∀ P' : IdmParams, AgentMapFree (idmAgent (K := K) (P' := P) (n := n) (T := T) P')) ∧
    ∀ speed : ℝ, AgentMapFree (constantSpeedPolicy (K := K) (P := P) (n := n) (T := T) speed) := by
  refine ⟨⟨fun _ _ _ _ => rfl, fun s s' p x k h => ?_⟩, fun P' => ⟨fun _ _ _ _ => rfl, fun s s' p x k h => ?_⟩,
    fun speed => ⟨fun _ _ _ _ => rfl, fun s s' p x k h => ?_⟩⟩ <;>
  · obtain ⟨a, xs⟩ := s
    obtain ⟨b, ys⟩ := s'
    obtain ⟨h1, h2⟩ := h
    simp only at h1 h2
    subst h2
    cases h1
    rfl

theorem C149_plan_reset {E : PlanEnv D X K P n T} (hA : ∀ A ∈ E.actors, AgentMapFree A) (h : MapPadded s s') (split : K → Nat → List K)
    (rng : Option K) : Both PlanMapPadded (planReset E split s rng) (planReset E split s' rng) := by
  have hr := C149_reset E.cfg h
  unfold reset at hr
  unfold planReset
  refine hr.bind fun s0 s0' h0 => .ok ⟨h0, ?_⟩
  simp only
  refine List.map_congr_left fun e he => ?_
  exact (hA e.2 (List.of_mem_zip he).2).init _ _ _ ⟨h0, rfl⟩

theorem C149_plan_step {E : PlanEnv D X K P n T} (hA : ∀ A ∈ E.actors, AgentMapFree A) {s s' : PlanState X n T} (h : PlanMapPadded s s')
    (split : K → Nat → List K) (a : Act D) (rng : Option K) :
    Both PlanMapPadded (planStep E split s a rng) (planStep E split s' a rng) := by
  unfold planStep
  rw [h.2]
  split
  · exact .error
  · have hloop : ∀ (es : List (SimAgent X K P n T × X × P × Option K)) (acc : Merged X n), (∀ e ∈ es, e.1 ∈ E.actors) →
        ∀ ok : Fin n → Bool, es.foldl (mergeSimAgent s' ok) acc = es.foldl (mergeSimAgent s ok) acc := by
      intro es
      induction es with
      | nil => exact fun _ _ _ => rfl
      | cons e es ih =>
        intro acc he ok
        rw [List.foldl_cons, List.foldl_cons]
        have : mergeSimAgent s' ok acc e = mergeSimAgent s ok acc e := by
          unfold mergeSimAgent
          rw [(hA e.1 (he e List.mem_cons_self)).select s s' _ _ _ h]
        rw [this]
        exact ih _ (fun e' he' => he e' (List.mem_cons_of_mem _ he')) ok
    have hmem : ∀ e ∈ E.actors.zip (s.actorStates.zip (E.params.zip (planKeys split rng E.actors.length))), e.1 ∈ E.actors :=
      fun e he => (List.of_mem_zip he).1
    simp only [hloop _ _ hmem]
    obtain ⟨a, xs⟩ := s
    obtain ⟨b, ys⟩ := s'
    obtain ⟨h1, h2⟩ := h
    simp only at h1 h2
    subst h2
    cases h1 with
    | mk g1 g2 => exact .ok ⟨.mk g1 g2, rfl⟩

/-- Episodes of the planning environment. -/
theorem C149_plan_episode {E : PlanEnv D X K P n T} (hA : ∀ A ∈ E.actors, AgentMapFree A) (h : MapPadded s s') (split : K → Nat → List K)
    (rng : Option K) (as : List (Act D × Option K)) :
    Both PlanMapPadded (planReset E split s rng >>= fun s0 => planMany E split s0 as)
      (planReset E split s' rng >>= fun s0 => planMany E split s0 as) := by
  have key : ∀ (as : List (Act D × Option K)) (x x' : PlanState X n T), PlanMapPadded x x' →
      Both PlanMapPadded (planMany E split x as) (planMany E split x' as) := by
    intro as
    induction as with
    | nil => exact fun x x' hx => .ok hx
    | cons a as ih => exact fun x x' hx => (C149_plan_step hA hx split a.1 a.2).bind ih
  exact (C149_plan_reset hA h split rng).bind (key as)

/-- Its metrics and its reward. -/
theorem C149_plan_metrics (E : PlanEnv D X K P n T) (names : List String) (computeReward : Bool) (a : Act D) (h : MapPadded s s') :
    planMetrics builtinMetrics E.cfg names s' = planMetrics builtinMetrics E.cfg names s ∧
    planReward builtinMetrics E computeReward s' a = planReward builtinMetrics E computeReward s a := by
  have ho : s'.objectMetadata = s.objectMetadata := by cases h; rfl
  have ht : s'.timestep = s.timestep := by cases h; rfl
  have h1 := C149_env_metrics names h
  have h2 := C149_env_metrics (E.rewards.map Prod.fst) h
  unfold envMetrics at h1 h2
  constructor
  · unfold planMetrics
    rw [ho, ht, h1]
  · unfold planReward linearReward
    rw [ho, h2]

end

/-! ### C150: what an observer sees of the map -/

omit [NeZero T] in
theorem topKIdx_full {N : Nat} (key : Fin N → WithTop ℝ) : (topKIdx key N).Perm (List.finRange N) ∧
    (topKIdx key N).Pairwise fun a b => key a < key b ∨ (key a = key b ∧ a < b) := by
  obtain ⟨rest, h1, h2⟩ := topKIdx_lex key N
  have hl : (topKIdx key N).length = N := by
    unfold topKIdx
    rw [List.length_take, List.length_mergeSort, List.length_finRange, min_self]
  have hr : rest = [] := by
    have := h1.length_eq
    rw [List.length_append, hl, List.length_finRange] at this
    exact List.length_eq_zero_iff.1 (by omega)
  subst hr
  rw [List.append_nil] at h1 h2
  exact ⟨h1, h2⟩

omit [NeZero T] in
theorem topKIdx_take {N : Nat} (key : Fin N → WithTop ℝ) {k : Nat} (hk : k ≤ N) : topKIdx key k = (topKIdx key N).take k := by
  unfold topKIdx
  rw [List.take_take, min_eq_left hk]

omit [NeZero T] in
/-- Among more candidates, where all further ones come last and are infinitely far away, the same ones are chosen. -/
theorem topKIdx_padded {N N' : Nat} (hN : N ≤ N') {key : Fin N → WithTop ℝ} {key' : Fin N' → WithTop ℝ}
    (hk : ∀ i : Fin N, key' (i.castLE hN) = key i) (hp : ∀ i : Fin N', N ≤ i.val → key' i = ⊤) {k : Nat} (hkN : k ≤ N) :
    topKIdx key' k = (topKIdx key k).map (Fin.castLE hN) := by
  obtain ⟨p1, q1⟩ := topKIdx_full key
  obtain ⟨p2, q2⟩ := topKIdx_full key'
  have hcast : ∀ i : Fin N', i.val < N → ∃ j : Fin N, j.castLE hN = i := fun i hi => ⟨⟨i.val, hi⟩, rfl⟩
  have hfull : topKIdx key' N' = (topKIdx key N).map (Fin.castLE hN) ++ (List.finRange N').filter fun i => decide (N ≤ i.val) := by
    refine List.Perm.eq_of_pairwise (le := fun a b => key' a < key' b ∨ (key' a = key' b ∧ a < b)) ?_ q2 ?_ ?_
    · rintro a b - - (h1 | h1) (h2 | h2)
      · exact absurd h1 (not_lt.2 h2.le)
      · exact absurd h1 (by rw [h2.1]; exact lt_irrefl _)
      · exact absurd h2 (by rw [h1.1]; exact lt_irrefl _)
      · exact absurd h1.2 (not_lt.2 h2.2.le)
    · rw [List.pairwise_append]
      refine ⟨?_, ?_, ?_⟩
      · rw [List.pairwise_map]
        refine q1.imp fun {a b} h => ?_
        rw [hk, hk]
        exact h
      · refine ((List.pairwise_lt_finRange N').filter _).imp_of_mem fun {a b} ha hb h => .inr ⟨?_, h⟩
        rw [List.mem_filter, decide_eq_true_eq] at ha hb
        rw [hp a ha.2, hp b hb.2]
      · intro a ha b hb
        obtain ⟨j, -, rfl⟩ := List.mem_map.1 ha
        rw [List.mem_filter, decide_eq_true_eq] at hb
        rw [hp b hb.2]
        rcases lt_or_eq_of_le (le_top (a := key' (j.castLE hN))) with h | h
        · exact .inl h
        · refine .inr ⟨h, ?_⟩
          have := j.isLt
          rw [Fin.lt_def]
          simp only [Fin.val_castLE]
          omega
    · refine p2.trans ?_
      rw [List.perm_ext_iff_of_nodup (List.nodup_finRange N')]
      · intro a
        simp only [List.mem_finRange, List.mem_append, List.mem_map, List.mem_filter, true_and, decide_eq_true_eq, true_iff]
        by_cases ha : a.val < N
        · obtain ⟨j, hj⟩ := hcast a ha
          exact .inl ⟨j, p1.mem_iff.2 (List.mem_finRange j), hj⟩
        · exact .inr (by omega)
      · refine List.Nodup.append ?_ ((List.nodup_finRange N').filter _) ?_
        · exact (p1.nodup_iff.2 (List.nodup_finRange N)).map (Fin.castLE_injective hN)
        · intro a ha hb
          obtain ⟨j, -, rfl⟩ := List.mem_map.1 ha
          rw [List.mem_filter, decide_eq_true_eq, Fin.val_castLE] at hb
          have := j.isLt
          omega
  have hlen : (topKIdx key N).length = N := by rw [p1.length_eq, List.length_finRange]
  rw [topKIdx_take key' (hkN.trans hN), hfull, topKIdx_take key hkN,
    List.take_append_of_le_length (by rw [List.length_map, hlen]; exact hkN), List.map_take]

omit [NeZero T] in
/-- The nearest road points are the same, in the same order, as long as fewer points are asked for than the map had without padding. -/
theorem C150_nearest_partial {rg rg' : List (RgPoint ℝ)} (h : RoadPadded rg rg') (ref : ℝ × ℝ) {topk : Nat} (hk : topk < rg.length) :
    filterTopk rg' ref topk = filterTopk rg ref topk := by
  obtain ⟨pad, rfl, hp⟩ := h
  have hl : rg.length ≤ (rg ++ pad).length := by rw [List.length_append]; omega
  unfold filterTopk
  rw [if_neg (not_lt.2 (hk.le.trans hl)), if_neg (not_lt.2 hk.le), if_pos (lt_of_lt_of_le hk hl), if_pos hk]
  simp only
  have hget : ∀ i : Fin rg.length, (rg ++ pad)[i.castLE hl] = rg[i] := by
    intro i
    simp only [Fin.getElem_fin, Fin.val_castLE]
    exact List.getElem_append_left i.isLt
  rw [topKIdx_padded hl (key := fun i : Fin rg.length => orInf rg[i].valid (hypot (ref.1 - rg[i].x) (ref.2 - rg[i].y)))
    (fun i => by simp only [hget]) (fun i hi => ?_) hk.le, List.map_map]
  · congr 1
    refine List.map_congr_left fun i _ => ?_
    simp only [Function.comp, hget]
  · refine orInf_invalid (hp _ ?_)
    have : (rg ++ pad)[i] = pad[i.val - rg.length]'(by have := i.isLt.trans_eq List.length_append; omega) := by
      simp only [Fin.getElem_fin]
      exact List.getElem_append_right hi
    rw [this]
    exact List.getElem_mem _

/-- Every observer's view, in every frame. -/
theorem C150_observation_partial (h : MapPadded s s') {rg : List (RgPoint ℝ)} (hrg : s.roadgraphPoints = some rg) (K : Nat) {topk : Nat}
    (hk : topk < rg.length) (frame : Frame) (i : Fin n) :
    observationFromState s' K topk frame i = observationFromState s K topk frame i := by
  cases h with
  | @mk rg' ps' h1 h2 =>
  rcases h1 with rfl | ⟨a, b, ha, rfl, hne, hp⟩
  · rfl
  · rw [hrg] at ha
    cases ha
    unfold observationFromState globalObservation
    simp only [hrg]
    split
    · simp only [Obs.withTopk, C150_nearest_partial hp _ hk, bind, Except.bind, SimState.currentSim]
    · rfl

/-- What the SDC's observation does with the filtered observation. -/
noncomputable def sdcView {K : Nat} (frame : Frame) (cur : Fin n → Pt ℝ) (k : Fin n) (o : Obs n K) : Obs n K :=
  match frame with
  | .OBJECT | .SDC => transformObservation o (Pose2D.fromCenterAndYaw ((cur k).x, (cur k).y) (cur k).yaw (cur k).valid)
  | .GLOBAL => o

/-- The SDC's view is the same apart from the paths, which are handed on as stored. -/
theorem C150_sdc_observation_partial (h : MapPadded s s') {rg : List (RgPoint ℝ)} (hrg : s.roadgraphPoints = some rg) (K : Nat)
    {topk : Nat} (hk : topk < rg.length) (frame : Frame) :
    Both (fun o o' => { o' with sdcPaths := o.sdcPaths } = o ∧
        (o'.sdcPaths = o.sdcPaths ∨ ∃ a b, o.sdcPaths = some a ∧ o'.sdcPaths = some b ∧ PathsPadded a b))
      (sdcObservationFromState s K topk frame) (sdcObservationFromState s' K topk frame) := by
  cases h with
  | @mk rg' ps' h1 h2 =>
  have hg : ∀ ref isEgo, (globalObservation { s with roadgraphPoints := rg', sdcPaths := ps' } K >>= fun g => g.withTopk isEgo ref topk) =
      globalObservation s K >>= fun g => g.withTopk isEgo ref topk := by
    intro ref isEgo
    rcases h1 with rfl | ⟨a, b, ha, rfl, hne, hp⟩
    · rfl
    · rw [hrg] at ha
      cases ha
      unfold globalObservation
      simp only [hrg]
      split
      · simp only [Obs.withTopk, C150_nearest_partial hp _ hk, bind, Except.bind]
      · rfl
  have heq : ∀ t : SimState ℝ n T, sdcObservationFromState t K topk frame = sdcIndex t.objectMetadata >>= fun k =>
      (globalObservation t K >>= fun g => g.withTopk (fun j => (t.objectMetadata j).isSdc) ((t.currentSim k).x, (t.currentSim k).y) topk) >>=
      fun o => Except.ok (sdcView frame t.currentSim k (match t.sdcPaths with | none => o | some paths => { o with sdcPaths := some paths })) := by
    intro t
    unfold sdcObservationFromState
    cases sdcIndex t.objectMetadata with
    | error e => rfl
    | ok k =>
      cases globalObservation t K with
      | error e => rfl
      | ok g => cases frame <;> rfl
  rw [heq, heq]
  simp only [hg]
  change Both _ (sdcIndex s.objectMetadata >>= _) (sdcIndex s.objectMetadata >>= _)
  cases sdcIndex s.objectMetadata with
  | error e => exact .error
  | ok k =>
    change Both _ ((globalObservation s K >>= fun g => g.withTopk _ ((s.currentSim k).x, (s.currentSim k).y) topk) >>= _)
      ((globalObservation s K >>= fun g => g.withTopk _ ((s.currentSim k).x, (s.currentSim k).y) topk) >>= _)
    cases (globalObservation s K >>= fun g => g.withTopk (fun j => (s.objectMetadata j).isSdc) ((s.currentSim k).x, (s.currentSim k).y) topk) with
    | error e => exact .error
    | ok o =>
      rcases h2 with rfl | ⟨a, b, ha, rfl, hp⟩
      · refine .ok ?_
        exact ⟨rfl, .inl rfl⟩
      · refine .ok ?_
        simp only [ha]
        cases frame <;> exact ⟨rfl, .inr ⟨a, b, rfl, rfl, hp⟩⟩

/-- What one would expect of padding: the points seen are the same. -/
def PaddingInvisible : Prop := ∀ rg rg' ref topk, RoadPadded rg rg' → topk ≤ rg.length → filterTopk rg' ref topk = filterTopk rg ref topk

/-- Two road points, the second nearer to the origin. -/
def rgTwo : List (RgPoint ℝ) := [⟨5, 0, 0, 1, 0, 0, 15, 7, true⟩, ⟨1, 0, 0, 1, 0, 0, 15, 8, true⟩]

/-- Asked for exactly as many points as it has, a map without padding is handed on as it is stored; with one padding point the same
points come sorted. -/
theorem C150_violated : ¬ PaddingInvisible := by
  intro h
  have := h rgTwo (rgTwo ++ [⟨0, 0, 0, 0, 0, 0, 0, 0, false⟩]) (0, 0) 2 ⟨_, rfl, by simp⟩ (by simp [rgTwo])
  rw [(C53_sizes rgTwo (0, 0) 2).1 rfl] at this
  obtain ⟨idx, hlen, hpw, hrest, hf⟩ := C53_nearest (by simp [rgTwo]) this
  match idx, hf, hpw with
  | [a, b], hf, hpw =>
    unfold rgTwo at hf
    rcases hf with _ | ⟨h1, h2⟩
    rcases h2 with _ | ⟨h2, -⟩
    have ha : a = ⟨0, by simp [rgTwo]⟩ := by
      rcases a with ⟨v, hv⟩
      have hv' : v < 3 := by simpa [rgTwo] using hv
      interval_cases v <;> simp [SameGeometry, rgTwo] at h1 ⊢
    have hb : b = ⟨1, by simp [rgTwo]⟩ := by
      rcases b with ⟨v, hv⟩
      have hv' : v < 3 := by simpa [rgTwo] using hv
      interval_cases v <;> simp [SameGeometry, rgTwo] at h2 ⊢
    subst ha hb
    have := List.pairwise_cons.1 hpw
    have := this.1 _ List.mem_cons_self
    simp [RanksBefore, rgTwo, dist2] at this

omit [NeZero T] in
/-- Asked for exactly as many points as the map has without padding, padding does not change which points are seen, only their
order and, for large ones, ids (C54). -/
theorem C150_all_points {rg rg' : List (RgPoint ℝ)} (h : RoadPadded rg rg') (hne : rg'.length ≠ rg.length) (ref : ℝ × ℝ) :
    ∃ out, filterTopk rg' ref rg.length = .ok out ∧
      out.Perm (rg.map fun p => { p with type := f32OfInt p.type, id := f32OfInt p.id }) := by
  obtain ⟨pad, rfl, hp⟩ := h
  have hl : rg.length ≤ (rg ++ pad).length := by rw [List.length_append]; omega
  have hlt : rg.length < (rg ++ pad).length := lt_of_le_of_ne hl (Ne.symm hne)
  unfold filterTopk
  rw [if_neg (not_lt.2 hl), if_pos hlt]
  refine ⟨_, rfl, ?_⟩
  have hget : ∀ i : Fin rg.length, (rg ++ pad)[i.castLE hl] = rg[i] := by
    intro i
    simp only [Fin.getElem_fin, Fin.val_castLE]
    exact List.getElem_append_left i.isLt
  rw [topKIdx_padded hl (key := fun i : Fin rg.length => orInf rg[i].valid (hypot (ref.1 - rg[i].x) (ref.2 - rg[i].y)))
    (fun i => by simp only [hget]) (fun i hi => ?_) le_rfl, List.map_map]
  · refine ((topKIdx_full _).1.map _).trans (List.Perm.of_eq ?_)
    refine List.ext_getElem (by simp) fun i h1 h2 => ?_
    simp only [List.getElem_map, List.getElem_finRange, Function.comp, hget]
    rfl
  · refine orInf_invalid (hp _ ?_)
    have : (rg ++ pad)[i] = pad[i.val - rg.length]'(by have := i.isLt.trans_eq List.length_append; omega) := by
      simp only [Fin.getElem_fin]
      exact List.getElem_append_right hi
    rw [this]
    exact List.getElem_mem _

/-! ### Example -/

/-- The example of C39 with two road points. -/
noncomputable def exMap (rg : List (RgPoint ℝ)) (ps : List (SdcPath ℝ)) : SimState ℝ 1 2 :=
  { exRoute 10 with roadgraphPoints := some rg, sdcPaths := some ps }

/-- Padding with points at the very place of the SDC, which would be the nearest ones if they counted. -/
theorem exMap_padded : MapPadded (exMap rgTwo [exPath])
    (exMap (rgTwo ++ [⟨10, 0, 0, 0, 0, 0, 15, 0, false⟩])
      [{ exPath with points := exPath.points ++ [⟨10, 0, 0, 0, false, 77⟩] }, { points := [⟨10, 0, 0, 0, false, 5⟩], onRoute := true }]) := by
  refine .mk (s := exMap rgTwo [exPath]) (.inr ⟨_, _, rfl, rfl, by simp [rgTwo], _, rfl, by simp⟩) (.inr ⟨_, _, rfl, rfl, by simp, ?_⟩)
  exact ⟨[{ exPath with points := exPath.points ++ [⟨10, 0, 0, 0, false, 77⟩] }], [{ points := [⟨10, 0, 0, 0, false, 5⟩], onRoute := true }],
    rfl, .cons ⟨rfl, by simp [exPath], _, rfl, by simp⟩ .nil, by simp⟩

example : ∃ s s' : SimState ℝ 1 2, MapPadded s s' ∧ s ≠ s' ∧ s.roadgraphPoints = some rgTwo ∧ 1 < rgTwo.length :=
  ⟨_, _, exMap_padded, fun h => by have := congrArg SimState.roadgraphPoints h; simp [exMap] at this, rfl, by simp [rgTwo]⟩

end

end Waymax
