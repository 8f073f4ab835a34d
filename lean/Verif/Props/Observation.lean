import Verif.Props.Roadgraph
import Verif.Props.Frames
import Verif.Props.PlanningGaps
/-
C50: an observation shows the most recent simulated steps and nothing later.
C51: is_ego. C52: transforming an observation. C80: object-centric observations. C82: the SDC's observation.
-/

namespace Waymax

open Real

section
variable {n T : Nat}

/-! ### What the functions return -/

/-- The history window of a state. -/
theorem globalObservation_ok {s : SimState ℝ n T} {K : Nat} {g : Obs n K} (h : globalObservation s K = .ok g) :
    ∃ hK : K ≤ T, s.roadgraphPoints = some g.roadgraph ∧
      g.trajectory = (fun i => dynSlice (s.simTrajectory i) (s.timestep - K + 1) K hK) ∧
      g.pose2d = Pose2D.fromCenterAndYaw (0, 0) 0 true ∧ g.metadata = s.objectMetadata ∧
      g.trafficLights = (s.logTrafficLight.map fun l => dynSlice l (s.timestep - K + 1) K hK) ∧
      g.sdcPaths = some placeholderPaths := by
  unfold globalObservation at h
  split at h
  · rename_i hK
    split at h
    · exact absurd h (by simp)
    · rename_i rg hrg
      have := Except.ok.inj h
      subst this
      exact ⟨hK, hrg, rfl, rfl, rfl, rfl, rfl⟩
  · exact absurd h (by simp)

/-- The all-object observation before any change of frame. -/
theorem obs_global_ok [NeZero T] {s : SimState ℝ n T} {K topk : Nat} {i : Fin n} {o : Obs n K}
    (h : observationFromState s K topk .GLOBAL i = .ok o) :
    ∃ (hK : K ≤ T) (rg : List (RgPoint ℝ)), s.roadgraphPoints = some rg ∧
      filterTopk rg ((s.currentSim i).x, (s.currentSim i).y) topk = .ok o.roadgraph ∧
      o.trajectory = (fun i => dynSlice (s.simTrajectory i) (s.timestep - K + 1) K hK) ∧
      o.pose2d = Pose2D.fromCenterAndYaw (0, 0) 0 true ∧ o.metadata = s.objectMetadata ∧
      o.trafficLights = (s.logTrafficLight.map fun l => dynSlice l (s.timestep - K + 1) K hK) ∧
      o.sdcPaths = some placeholderPaths ∧
      o.isEgo = fun j : Fin n => decide ((if i = j then i.val else 0) = 1) := by
  unfold observationFromState at h
  cases hg : globalObservation s K with
  | error e => rw [hg] at h; exact absurd h (by simp [bind, Except.bind])
  | ok g =>
    obtain ⟨hK, h1, h2, h3, h4, h5, h6⟩ := globalObservation_ok hg
    rw [hg] at h
    simp only [bind, Except.bind, Obs.withTopk] at h
    cases hf : filterTopk g.roadgraph ((s.currentSim i).x, (s.currentSim i).y) topk with
    | error e => rw [hf] at h; exact absurd h (by simp)
    | ok rg =>
      rw [hf] at h
      have := Except.ok.inj h
      subst this
      exact ⟨hK, g.roadgraph, h1, hf, h2, h3, h4, h5, h6, rfl⟩

/-- The other frames are transformations of the global-frame observation. -/
theorem obs_object_ok [NeZero T] {s : SimState ℝ n T} {K topk : Nat} {i : Fin n} {o : Obs n K}
    (h : observationFromState s K topk .OBJECT i = .ok o) :
    ∃ g, observationFromState s K topk .GLOBAL i = .ok g ∧
      o = transformObservation g
        (Pose2D.fromCenterAndYaw ((s.currentSim i).x, (s.currentSim i).y) (s.currentSim i).yaw (s.currentSim i).valid) := by
  unfold observationFromState at h ⊢
  cases hg : globalObservation s K with
  | error e => rw [hg] at h; exact absurd h (by simp [bind, Except.bind])
  | ok g =>
    rw [hg] at h
    simp only [bind, Except.bind] at h ⊢
    split at h
    · exact absurd h (by simp)
    · exact ⟨_, rfl, (Except.ok.inj h).symm⟩

theorem obs_sdc_ok [NeZero T] {s : SimState ℝ n T} {K topk : Nat} {i : Fin n} {o : Obs n K}
    (h : observationFromState s K topk .SDC i = .ok o) :
    ∃ g k, observationFromState s K topk .GLOBAL i = .ok g ∧ sdcIndex s.objectMetadata = .ok k ∧
      o = transformObservation g
        (Pose2D.fromCenterAndYaw ((s.currentSim k).x, (s.currentSim k).y) (s.currentSim k).yaw (s.currentSim k).valid) := by
  unfold observationFromState at h ⊢
  cases hg : globalObservation s K with
  | error e => rw [hg] at h; exact absurd h (by simp [bind, Except.bind])
  | ok g =>
    rw [hg] at h
    simp only [bind, Except.bind] at h ⊢
    split at h
    · exact absurd h (by simp)
    · split at h
      · exact absurd h (by simp)
      · rename_i k hk
        exact ⟨_, k, rfl, hk, (Except.ok.inj h).symm⟩

/-- The only SDC is the one found. -/
theorem sdcIndex_unique {md : Fin n → ObjMeta} {k : Fin n} (hk : ∀ j, (md j).isSdc = true ↔ j = k) :
    sdcIndex md = .ok k := by
  unfold sdcIndex
  rw [dif_pos (by have := k.isLt; omega)]
  split
  · rename_i i hi
    have := List.find?_some hi
    rw [(hk i).1 this]
  · rename_i hi
    have := List.find?_eq_none.1 hi k (List.mem_finRange k)
    exact absurd ((hk k).2 rfl) this

/-! ### C50 -/

theorem dynSlice_window {β : Type} (x : Fin T → β) {t : Int} {K : Nat} (hK : K ≤ T) (h0 : (K : Int) ≤ t + 1)
    (h1 : t + 1 ≤ T) (u : Fin K) (τ : Fin T) (hτ : (τ : Int) = t + 1 - K + u) :
    dynSlice x (t - K + 1) K hK u = x τ := by
  unfold dynSlice
  congr 1
  apply Fin.ext
  have := startIdx_of_inRange (dim := T) (size := K) (i := t - K + 1) (by omega) (by omega)
  simp only [this]
  omega

/-- After `reset` and any actions inside the horizon, with a history length allowed by the configuration check
(`obs_num_steps ≤ init_steps`), entry `u` of the window of length `K` shows simulated step `t - K + 1 + u`, where `t` is the
current step; traffic lights are shown for the same steps. -/
theorem C50_window [NeZero T] {D : Type} {d : DynamicsModel ℝ D n} {cfg : EnvConfig} {scen s0 s1 : SimState ℝ n T}
    {acts : List (Fin n → Act D)} (E : Episode d cfg scen s0 acts s1) {K topk : Nat} (hK : K ≤ cfg.initSteps)
    {i : Fin n} {o : Obs n K} (h : observationFromState s1 K topk .GLOBAL i = .ok o)
    (u : Fin K) (τ : Fin T) (hτ : τ.val + K = cfg.initSteps + acts.length + u) :
    (∀ j, o.trajectory j u = s1.simTrajectory j τ) ∧
    List.Forall₂ (fun log seen => seen u = log τ) scen.logTrafficLight o.trafficLights := by
  obtain ⟨hKT, rg, -, -, htr, -, -, htl, -, -⟩ := obs_global_ok h
  have ht := E.timestep_eq
  have hf := E.fits
  have hw : ∀ {β : Type} (x : Fin T → β), dynSlice x (s1.timestep - K + 1) K hKT u = x τ :=
    fun x => dynSlice_window x hKT (by omega) (by omega) u τ (by omega)
  constructor
  · intro j
    rw [htr]
    exact hw _
  · have hl : s1.logTrafficLight = scen.logTrafficLight := by
      rw [(stepMany_same E.run).lights, E.reset_data]
    rw [htl, hl, List.forall₂_map_right_iff, List.forall₂_same]
    intro l _
    exact hw _

/-- The newest entry is the current step. -/
theorem C50_newest_is_current [NeZero T] {D : Type} {d : DynamicsModel ℝ D n} {cfg : EnvConfig}
    {scen s0 s1 : SimState ℝ n T} {acts : List (Fin n → Act D)} (E : Episode d cfg scen s0 acts s1) {K topk : Nat}
    (hK : K ≤ cfg.initSteps) {i : Fin n} {o : Obs n K} (h : observationFromState s1 K topk .GLOBAL i = .ok o)
    (u : Fin K) (hu : u.val + 1 = K) (τ : Fin T) (hτ : (τ : Int) = s1.timestep) (j : Fin n) :
    o.trajectory j u = s1.simTrajectory j τ := by
  have ht := E.timestep_eq
  have hw := E.warm
  exact (C50_window E hK h u τ (by omega)).1 j

/-- Two states that agree up to the current step. -/
structure SamePast (s s' : SimState ℝ n T) : Prop where
  now : s'.timestep = s.timestep
  past : ∀ j (τ : Fin T), (τ : Int) ≤ s.timestep → s'.simTrajectory j τ = s.simTrajectory j τ
  lights : List.Forall₂ (fun l l' : Fin T → TlState ℝ => ∀ τ : Fin T, (τ : Int) ≤ s.timestep → l' τ = l τ)
    s.logTrafficLight s'.logTrafficLight
  objects : s'.objectMetadata = s.objectMetadata
  roads : s'.roadgraphPoints = s.roadgraphPoints
  paths : s'.sdcPaths = s.sdcPaths

theorem dynSlice_past {β : Type} (x x' : Fin T → β) {t : Int} {K : Nat} (hK : K ≤ T) (h0 : (K : Int) ≤ t + 1)
    (h1 : t < T) (hx : ∀ τ : Fin T, (τ : Int) ≤ t → x' τ = x τ) :
    dynSlice x' (t - K + 1) K hK = dynSlice x (t - K + 1) K hK := by
  funext u
  have hu := u.isLt
  rw [dynSlice_window x' hK h0 (by omega) u ⟨(t + 1 - K + u).toNat, by omega⟩ (by simp; omega),
    dynSlice_window x hK h0 (by omega) u ⟨(t + 1 - K + u).toNat, by omega⟩ (by simp; omega)]
  exact hx _ (by simp; omega)

theorem SamePast.global {s s' : SimState ℝ n T} (h : SamePast s s') {K : Nat} (hK : (K : Int) ≤ s.timestep + 1)
    (hT : s.timestep < T) : globalObservation s' K = globalObservation s K := by
  have htr : ∀ hKT : K ≤ T, (fun i => dynSlice (s'.simTrajectory i) (s.timestep - K + 1) K hKT) =
      fun i => dynSlice (s.simTrajectory i) (s.timestep - K + 1) K hKT := by
    intro hKT; funext i
    exact dynSlice_past _ _ hKT hK hT (h.past i)
  have htl : ∀ hKT : K ≤ T, (s'.logTrafficLight.map fun l => dynSlice l (s.timestep - K + 1) K hKT) =
      s.logTrafficLight.map fun l => dynSlice l (s.timestep - K + 1) K hKT := by
    intro hKT
    have hl := h.lights
    generalize s'.logTrafficLight = l' at hl ⊢
    generalize s.logTrafficLight = l at hl ⊢
    induction hl with
    | nil => rfl
    | cons h1 _ ih => rw [List.map_cons, List.map_cons, ih, dynSlice_past _ _ hKT hK hT h1]
  unfold globalObservation
  rw [h.roads, h.now, h.objects]
  split
  · rename_i hKT
    rw [htr hKT, htl hKT]
  · rfl

theorem SamePast.cur [NeZero T] {s s' : SimState ℝ n T} (h : SamePast s s') (h0 : 0 ≤ s.timestep) (hT : s.timestep < T) :
    s'.currentSim = s.currentSim := by
  funext j
  obtain ⟨τ, hτ⟩ : ∃ τ : Fin T, (τ : Int) = s.timestep := ⟨⟨s.timestep.toNat, by omega⟩, by simp; omega⟩
  show dynIndex (s'.simTrajectory j) s'.timestep = dynIndex (s.simTrajectory j) s.timestep
  rw [h.now, dynIndex_of_eq _ hτ, dynIndex_of_eq _ hτ, h.past j τ (by omega)]

/-- Nothing later than the current step can influence an observation, in any frame: states that agree up to the current step
give equal observations. -/
theorem C50_no_future [NeZero T] {s s' : SimState ℝ n T} (h : SamePast s s') {K : Nat} (hK : (K : Int) ≤ s.timestep + 1)
    (h0 : 0 ≤ s.timestep) (hT : s.timestep < T) (topk : Nat) (frame : Frame) :
    (∀ i, observationFromState s' K topk frame i = observationFromState s K topk frame i) ∧
    sdcObservationFromState s' K topk frame = sdcObservationFromState s K topk frame := by
  constructor
  · intro i
    unfold observationFromState
    rw [h.global hK hT, h.cur h0 hT, h.objects]
  · unfold sdcObservationFromState
    rw [h.global hK hT, h.cur h0 hT, h.objects, h.paths]

/-! ### C51 -/

/-- What the flag should say: in the row of observer `i`, exactly object `i` is the ego. -/
def EgoMarksObserver (i : Fin n) (o : Obs n K) : Prop := ∀ j, o.isEgo j = true ↔ j = i

theorem transformObservation_isEgo {K : Nat} (o : Obs n K) (p : Pose2D) : (transformObservation o p).isEgo = o.isEgo := rfl

/-- What it does say, in every frame: only entry (1, 1) is ever set. -/
theorem C51_exact [NeZero T] {s : SimState ℝ n T} {K topk : Nat} {frame : Frame} {i : Fin n} {o : Obs n K}
    (h : observationFromState s K topk frame i = .ok o) (j : Fin n) :
    o.isEgo j = true ↔ i = j ∧ i.val = 1 := by
  have key : ∀ g, observationFromState s K topk .GLOBAL i = .ok g → (g.isEgo j = true ↔ i = j ∧ i.val = 1) := by
    intro g hg
    obtain ⟨-, -, -, -, -, -, -, -, -, he⟩ := obs_global_ok hg
    rw [he]
    simp only [decide_eq_true_eq]
    split <;> simp_all
  cases frame with
  | GLOBAL => exact key o h
  | OBJECT =>
    obtain ⟨g, hg, rfl⟩ := obs_object_ok h
    rw [transformObservation_isEgo]; exact key g hg
  | SDC =>
    obtain ⟨g, k, hg, -, rfl⟩ := obs_sdc_ok h
    rw [transformObservation_isEgo]; exact key g hg

/-- A scene with a road, a light and an SDC path: two cars at step 1 of 3. -/
noncomputable def townScen : SimState ℝ 2 3 :=
  { carScen with
    simTrajectory := fun i t => ptAt (10 * i.val) t.val 0 0 10
    logTrafficLight := [fun t => ⟨5, 5, 0, t.val, 7, true⟩]
    timestep := 1
    sdcPaths := some [{ points := [⟨3, 4, 0, 1, true, 0⟩], onRoute := true }]
    roadgraphPoints := some [⟨1, 2, 0, 1, 0, 0, 15, 3, true⟩] }

theorem town_obs (frame : Frame) (i : Fin 2) : ∃ o, observationFromState townScen 2 1 frame i = .ok o := by
  have hg : ∃ g, globalObservation townScen 2 = .ok g ∧ g.roadgraph = [⟨1, 2, 0, 1, 0, 0, 15, 3, true⟩] :=
    ⟨_, by unfold globalObservation; rw [dif_pos (by omega)]; rfl, rfl⟩
  obtain ⟨g, hg, hr⟩ := hg
  have hf : ∀ e ref, g.withTopk e ref 1 = .ok { g with isEgo := e } := by
    intro e ref
    unfold Obs.withTopk
    have h1 := (C53_sizes g.roadgraph ref g.roadgraph.length).1 rfl
    have h2 : g.roadgraph.length = 1 := by rw [hr]; rfl
    rw [h2] at h1
    rw [h1]
    rfl
  have hk : sdcIndex townScen.objectMetadata = .ok 0 := sdcIndex_unique (by intro j; simp [townScen, carScen])
  unfold observationFromState
  rw [hg]
  simp only [bind, Except.bind]
  rw [hf, hk]
  cases frame <;> exact ⟨_, rfl⟩

/-- The property fails, already for two objects: object 0 is not marked in its own row. -/
theorem C51_violated : ¬ ∀ (s : SimState ℝ 2 3) (K topk : Nat) (frame : Frame) (i : Fin 2) (o : Obs 2 K),
    observationFromState s K topk frame i = .ok o → EgoMarksObserver i o := by
  intro hall
  obtain ⟨o, ho⟩ := town_obs .GLOBAL 0
  have h1 := (hall _ _ _ _ _ _ ho 0).2 rfl
  have := (C51_exact ho 0).1 h1
  simp at this

/-- The observation made for the SDC alone does mark its observer. Missing: observations for all objects. -/
theorem C51_sdc_partial [NeZero T] {s : SimState ℝ n T} {K topk : Nat} {frame : Frame} {k : Fin n} {o : Obs n K}
    (hk : ∀ j, (s.objectMetadata j).isSdc = true ↔ j = k) (h : sdcObservationFromState s K topk frame = .ok o) :
    EgoMarksObserver k o := by
  have he : o.isEgo = fun j => (s.objectMetadata j).isSdc := by
    unfold sdcObservationFromState at h
    rw [sdcIndex_unique hk] at h
    cases hg : globalObservation s K with
    | error e => rw [hg] at h; exact absurd h (by simp [bind, Except.bind])
    | ok g =>
      rw [hg] at h
      simp only [bind, Except.bind, Obs.withTopk] at h
      cases hf : filterTopk g.roadgraph ((s.currentSim k).x, (s.currentSim k).y) topk with
      | error e => rw [hf] at h; exact absurd h (by simp)
      | ok rg =>
        rw [hf] at h
        cases frame <;> cases hp : s.sdcPaths <;> rw [hp] at h <;>
          · have := Except.ok.inj h
            subst this
            rfl
  intro j
  rw [he]
  exact hk j

/-! ### C52 -/

theorem seenPoint_iff (c : ℝ × ℝ) (yaw : ℝ) (g l : ℝ × ℝ) :
    SeenPoint c yaw g l ↔ transformPoints (poseMatrix c yaw) g = l := by
  unfold SeenPoint
  exact (C22_local_coordinates c.1 c.2 yaw g l.1 l.2).symm

theorem seenDir_iff (c : ℝ × ℝ) (yaw : ℝ) (g l : ℝ × ℝ) :
    SeenDir yaw g l ↔ transformDirection (poseMatrix c yaw) g = l := by
  have h := sin_sq_add_cos_sq yaw
  obtain ⟨g1, g2⟩ := g
  obtain ⟨l1, l2⟩ := l
  simp only [SeenDir, heading, leftOf, transformDirection, rotatePoints, poseMatrix, Matrix.of_apply, Matrix.cons_val',
    Matrix.cons_val_zero, Matrix.cons_val_one, cos_neg, sin_neg, Prod.mk.injEq]
  constructor
  · rintro ⟨rfl, rfl⟩
    exact ⟨by linear_combination l1 * h, by linear_combination l2 * h⟩
  · rintro ⟨rfl, rfl⟩
    exact ⟨by linear_combination (-g1) * h, by linear_combination (-g2) * h⟩

section
variable (a b : ℝ × ℝ) (α β : ℝ) (va vb : Bool)

theorem SeenPoint.change {g l : ℝ × ℝ} (h : SeenPoint a α g l) :
    SeenPoint b β g (transformPoints
      (combineTwoObjectPose2d (Pose2D.fromCenterAndYaw a α va) (Pose2D.fromCenterAndYaw b β vb)).matrix l) := by
  rw [seenPoint_iff] at h ⊢
  subst h
  exact (C23_combine_changes_frame a b α β va vb g 0).1.symm

theorem SeenDir.change {g l : ℝ × ℝ} (h : SeenDir α g l) :
    SeenDir β g (transformDirection
      (combineTwoObjectPose2d (Pose2D.fromCenterAndYaw a α va) (Pose2D.fromCenterAndYaw b β vb)).matrix l) := by
  rw [seenDir_iff a] at h
  rw [seenDir_iff b]
  subst h
  exact (C23_combine_changes_frame a b α β va vb g 0).2.1.symm

theorem SeenPt.change {g l : Pt ℝ} (h : SeenPt a α va g l) :
    SeenPt b β (va && vb) g (transformTrajectoryPt l
      (combineTwoObjectPose2d (Pose2D.fromCenterAndYaw a α va) (Pose2D.fromCenterAndYaw b β vb))) := by
  refine ⟨h.pos.change a b α β va vb, h.vel.change a b α β va vb, ?_, ?_, h.other⟩
  · rw [C23_combine_is_relative_pose]
    simp only [transformTrajectoryPt, Pose2D.fromCenterAndYaw, poseYaw, h.yaw]; ring
  · simp only [transformTrajectoryPt, C23_combine_is_relative_pose, Pose2D.fromCenterAndYaw, h.valid]
    cases g.valid <;> cases va <;> cases vb <;> rfl

theorem SeenRg.change {g l : RgPoint ℝ} (h : SeenRg a α va g l) :
    SeenRg b β (va && vb) g (transformRoadgraphPt l
      (combineTwoObjectPose2d (Pose2D.fromCenterAndYaw a α va) (Pose2D.fromCenterAndYaw b β vb))) := by
  refine ⟨h.pos.change a b α β va vb, h.dir.change a b α β va vb, ?_, h.other⟩
  simp only [transformRoadgraphPt, C23_combine_is_relative_pose, Pose2D.fromCenterAndYaw, h.valid]
  cases g.valid <;> cases va <;> cases vb <;> rfl

theorem SeenTl.change {g l : TlState ℝ} (h : SeenTl a α va g l) :
    SeenTl b β (va && vb) g (transformTrafficLight l
      (combineTwoObjectPose2d (Pose2D.fromCenterAndYaw a α va) (Pose2D.fromCenterAndYaw b β vb))) := by
  refine ⟨h.pos.change a b α β va vb, ?_, h.other⟩
  simp only [transformTrafficLight, C23_combine_is_relative_pose, Pose2D.fromCenterAndYaw, h.valid]
  cases g.valid <;> cases va <;> cases vb <;> rfl

end

/-- The full expectation: an observation that shows scene `g` from one pose, transformed to another pose, shows `g` from the
other pose, SDC paths included. -/
def TransformCoherent (n K : Nat) : Prop :=
  ∀ (a b : ℝ × ℝ) (α β : ℝ) (va vb : Bool) (g o : Obs n K), o.pose2d = Pose2D.fromCenterAndYaw a α va →
    ShowsFrom a α va g o → PathsSeen a α g o →
    ShowsFrom b β (va && vb) g (transformObservation o (Pose2D.fromCenterAndYaw b β vb)) ∧
    PathsSeen b β g (transformObservation o (Pose2D.fromCenterAndYaw b β vb))

/-- Objects, road graph and traffic lights are re-expressed correctly, whatever the two poses, and the new pose is recorded.
Missing: the SDC paths. -/
theorem C52_transform_partial {K : Nat} (a b : ℝ × ℝ) (α β : ℝ) (va vb : Bool) {g o : Obs n K}
    (hp : o.pose2d = Pose2D.fromCenterAndYaw a α va) (h : ShowsFrom a α va g o) :
    ShowsFrom b β (va && vb) g (transformObservation o (Pose2D.fromCenterAndYaw b β vb)) ∧
    (transformObservation o (Pose2D.fromCenterAndYaw b β vb)).pose2d = Pose2D.fromCenterAndYaw b β vb := by
  refine ⟨⟨?_, ?_, ?_, h.objectInfo, h.ego⟩, rfl⟩
  · intro i t
    simp only [transformObservation, hp]
    exact (h.objects i t).change a b α β va vb
  · simp only [transformObservation, hp]
    rw [List.forall₂_map_right_iff]
    exact h.roads.imp fun p q hpq => hpq.change a b α β va vb
  · simp only [transformObservation, hp]
    rw [List.forall₂_map_right_iff]
    exact h.lights.imp fun p q hpq t => (hpq t).change a b α β va vb

/-- The exact behaviour for SDC paths: they keep the coordinates they had. -/
theorem C52_paths_untouched {K : Nat} (o : Obs n K) (p : Pose2D) : (transformObservation o p).sdcPaths = o.sdcPaths := rfl

theorem seenPoint_self (p : ℝ × ℝ) : SeenPoint (0, 0) 0 p p := by
  simp [SeenPoint, pointAt, heading, leftOf]

theorem seenDir_self (p : ℝ × ℝ) : SeenDir 0 p p := by
  simp [SeenDir, heading, leftOf]

/-- A scene shows itself from the origin of the map. -/
theorem showsFrom_self {K : Nat} (o : Obs n K) : ShowsFrom (0, 0) 0 true o o := by
  refine ⟨fun i t => ?_, ?_, ?_, rfl, rfl⟩
  · exact ⟨seenPoint_self _, seenDir_self _, by ring, by simp, rfl, rfl, rfl, rfl, rfl⟩
  · rw [List.forall₂_same]
    exact fun p _ => ⟨seenPoint_self _, seenDir_self _, by simp, rfl, rfl, rfl, rfl⟩
  · rw [List.forall₂_same]
    exact fun p _ t => ⟨seenPoint_self _, by simp, rfl, rfl, rfl⟩

/-- The observation of the one object-free scene with an SDC path through (3, 4). -/
noncomputable def pathObs : Obs 0 1 :=
  { trajectory := fun i => i.elim0, isEgo := fun i => i.elim0, pose2d := Pose2D.fromCenterAndYaw (0, 0) 0 true
    metadata := fun i => i.elim0, roadgraph := [], trafficLights := []
    sdcPaths := some [{ points := [⟨3, 4, 0, 1, true, 0⟩], onRoute := true }] }

theorem C52_violated : ¬ ∀ n K, TransformCoherent n K := by
  intro hall
  have h := (hall 0 1 (0, 0) (1, 0) 0 0 true true pathObs pathObs rfl (showsFrom_self _) (by
    intro gs os hg ho
    have := Option.some.inj (hg.symm.trans ho)
    subst this
    exact List.forall₂_same.2 fun p _ => List.forall₂_same.2 fun q _ => seenPoint_self _)).2
  have h1 := h _ _ rfl (C52_paths_untouched _ _)
  simp only [List.forall₂_cons] at h1
  have h2 := h1.1.1
  simp [SeenPoint, pointAt, heading, leftOf] at h2

/-! ### C80 -/

/-- In the OBJECT frame every observer sees the scene of the global-frame observation from its own current pose; everything is
invalid when the observer is. -/
theorem C80_object_frame [NeZero T] {s : SimState ℝ n T} {K topk : Nat} {i : Fin n} {o : Obs n K}
    (h : observationFromState s K topk .OBJECT i = .ok o) :
    ∃ g, observationFromState s K topk .GLOBAL i = .ok g ∧
      ShowsFrom ((s.currentSim i).x, (s.currentSim i).y) (s.currentSim i).yaw (s.currentSim i).valid g o := by
  obtain ⟨g, hg, rfl⟩ := obs_object_ok h
  obtain ⟨-, -, -, -, -, hp, -⟩ := obs_global_ok hg
  have := (C52_transform_partial (0, 0) ((s.currentSim i).x, (s.currentSim i).y) 0 (s.currentSim i).yaw true
    (s.currentSim i).valid hp (showsFrom_self g)).1
  rw [Bool.true_and] at this
  exact ⟨g, hg, this⟩

/-- In the SDC frame every observer sees its scene from the pose of the SDC. -/
theorem C80_sdc_frame [NeZero T] {s : SimState ℝ n T} {K topk : Nat} {i k : Fin n} {o : Obs n K}
    (hk : ∀ j, (s.objectMetadata j).isSdc = true ↔ j = k) (h : observationFromState s K topk .SDC i = .ok o) :
    ∃ g, observationFromState s K topk .GLOBAL i = .ok g ∧
      ShowsFrom ((s.currentSim k).x, (s.currentSim k).y) (s.currentSim k).yaw (s.currentSim k).valid g o := by
  obtain ⟨g, k', hg, hk', rfl⟩ := obs_sdc_ok h
  have := Except.ok.inj ((sdcIndex_unique hk).symm.trans hk')
  subst this
  obtain ⟨-, -, -, -, -, hp, -⟩ := obs_global_ok hg
  have := (C52_transform_partial (0, 0) ((s.currentSim k).x, (s.currentSim k).y) 0 (s.currentSim k).yaw true
    (s.currentSim k).valid hp (showsFrom_self g)).1
  rw [Bool.true_and] at this
  exact ⟨g, hg, this⟩

/-- In the OBJECT frame the observer itself, at the newest step of its window, is at the origin with heading zero. -/
theorem C80_observer_at_origin [NeZero T] {s : SimState ℝ n T} {K topk : Nat} {i : Fin n} {o : Obs n K}
    (hK : (K : Int) ≤ s.timestep + 1) (hT : s.timestep < T) (h : observationFromState s K topk .OBJECT i = .ok o)
    (u : Fin K) (hu : u.val + 1 = K) :
    (o.trajectory i u).x = 0 ∧ (o.trajectory i u).y = 0 ∧ (o.trajectory i u).yaw = 0 ∧
    (o.trajectory i u).valid = (s.currentSim i).valid := by
  obtain ⟨g, hg, hs⟩ := C80_object_frame h
  obtain ⟨hKT, -, -, -, htr, -⟩ := obs_global_ok hg
  obtain ⟨τ, hτ⟩ : ∃ τ : Fin T, (τ : Int) = s.timestep := ⟨⟨s.timestep.toNat, by omega⟩, by simp; omega⟩
  have hcur : s.currentSim i = s.simTrajectory i τ := dynIndex_of_eq _ hτ
  have hgi : g.trajectory i u = s.currentSim i := by
    rw [htr, hcur]
    exact dynSlice_window _ hKT hK (by omega) u τ (by omega)
  have hp := hs.objects i u
  rw [hgi] at hp
  have h1 := (seenPoint_iff _ _ _ _).1 hp.pos
  rw [(C22_ego _ _).1] at h1
  refine ⟨(congrArg Prod.fst h1).symm, (congrArg Prod.snd h1).symm, by rw [hp.yaw]; ring, ?_⟩
  rw [hp.valid, Bool.and_self]

/-- Whatever the frame, distances between objects and the speed of each object are those of the map. -/
theorem C80_rigid {K : Nat} {c : ℝ × ℝ} {yaw : ℝ} {vis : Bool} {g o : Obs n K} (h : ShowsFrom c yaw vis g o)
    (i j : Fin n) (t u : Fin K) :
    dist2 ((o.trajectory i t).x, (o.trajectory i t).y) ((o.trajectory j u).x, (o.trajectory j u).y) =
      dist2 ((g.trajectory i t).x, (g.trajectory i t).y) ((g.trajectory j u).x, (g.trajectory j u).y) ∧
    norm2 ((o.trajectory i t).velX, (o.trajectory i t).velY) = norm2 ((g.trajectory i t).velX, (g.trajectory i t).velY) := by
  have h1 := (seenPoint_iff _ _ _ _).1 (h.objects i t).pos
  have h2 := (seenPoint_iff _ _ _ _).1 (h.objects j u).pos
  have h3 := (seenDir_iff c _ _ _).1 (h.objects i t).vel
  rw [← h1, ← h2, ← h3, C22_distances, C22_direction_norm]
  exact ⟨rfl, rfl⟩

/-! ### C82 -/

/-- Equal but for the ego flags and the SDC paths. -/
structure SameView {K : Nat} (o o' : Obs n K) : Prop where
  objects : o'.trajectory = o.trajectory
  pose : o'.pose2d = o.pose2d
  objectInfo : o'.metadata = o.metadata
  roads : o'.roadgraph = o.roadgraph
  lights : o'.trafficLights = o.trafficLights

/-- For a scenario with one SDC, `sdc_observation_from_state` succeeds exactly when `observation_from_state` does for the SDC, and
is the SDC's row of it, in every frame. -/
theorem C82_sdc_row [NeZero T] {s : SimState ℝ n T} {k : Fin n} (hk : ∀ j, (s.objectMetadata j).isSdc = true ↔ j = k)
    (K topk : Nat) (frame : Frame) :
    (∃ o, sdcObservationFromState s K topk frame = .ok o ∧ ∃ o', observationFromState s K topk frame k = .ok o' ∧
      SameView o' o ∧ (∀ paths, s.sdcPaths = some paths → o.sdcPaths = some paths)) ∨
    (∃ e, sdcObservationFromState s K topk frame = .error e ∧ observationFromState s K topk frame k = .error e) := by
  unfold sdcObservationFromState observationFromState
  rw [sdcIndex_unique hk]
  cases hg : globalObservation s K with
  | error e => exact Or.inr ⟨e, rfl, rfl⟩
  | ok g =>
    simp only [bind, Except.bind, Obs.withTopk]
    cases hf : filterTopk g.roadgraph ((s.currentSim k).x, (s.currentSim k).y) topk with
    | error e => exact Or.inr ⟨e, rfl, rfl⟩
    | ok rg =>
      refine Or.inl ?_
      cases hp : s.sdcPaths with
      | none =>
        cases frame <;> exact ⟨_, rfl, _, rfl, ⟨rfl, rfl, rfl, rfl, rfl⟩, fun p h => absurd h (by simp)⟩
      | some paths =>
        cases frame <;> exact ⟨_, rfl, _, rfl, ⟨rfl, rfl, rfl, rfl, rfl⟩, fun p h => h⟩

end

/-! ### The hypotheses can be met -/

example : ∃ o, observationFromState townScen 2 1 .OBJECT 1 = .ok o ∧ (o.trajectory 1 1).x = 0 ∧ (o.trajectory 1 1).y = 0 := by
  obtain ⟨o, ho⟩ := town_obs .OBJECT 1
  have h := C80_observer_at_origin (s := townScen) (by simp [townScen]) (by simp [townScen]) ho 1 (by rfl)
  exact ⟨o, ho, h.1, h.2.1⟩

example : ∀ j, (townScen.objectMetadata j).isSdc = true ↔ j = 0 := by intro j; simp [townScen, carScen]

/-- Episodes with an observation exist: the town scenario, two warm-up steps, one action, a window of two steps. -/
example : ∃ s0 s1 o, Episode (stateDynamics (α := ℝ) (n := 2)) { maxNumObjects := 2, initSteps := 2 } townScen s0
    [fun _ => { data := { x := 0, y := 0, yaw := 0, velX := 0, velY := 0 }, valid := true }] s1 ∧
    observationFromState s1 2 1 .GLOBAL 0 = .ok o := by
  obtain ⟨s0, s1, E⟩ := episode_exists (stateDynamics (α := ℝ) (n := 2)) { maxNumObjects := 2, initSteps := 2 } townScen
    [fun _ => { data := { x := 0, y := 0, yaw := 0, velX := 0, velY := 0 }, valid := true }] rfl (by decide) (by decide)
    (by decide)
  have hr : s1.roadgraphPoints = townScen.roadgraphPoints := by rw [(stepMany_same E.run).roads, E.reset_data]
  have hg : ∃ g, globalObservation s1 2 = .ok g ∧ g.roadgraph.length = 1 := by
    unfold globalObservation
    rw [dif_pos (by omega), hr]
    exact ⟨_, rfl, rfl⟩
  obtain ⟨g, hg, hl⟩ := hg
  have h1 := fun ref => (C53_sizes g.roadgraph ref g.roadgraph.length).1 rfl
  rw [hl] at h1
  refine ⟨s0, s1, ?_⟩
  unfold observationFromState
  rw [hg]
  simp only [bind, Except.bind, Obs.withTopk]
  rw [h1]
  exact ⟨_, E, rfl⟩

/-- Two states that differ only in the future. -/
example : SamePast townScen { townScen with simTrajectory := fun i t => if t = 2 then ptAt 99 99 0 0 0 else townScen.simTrajectory i t } := by
  refine ⟨rfl, fun j τ h => ?_, List.forall₂_same.2 fun _ _ _ _ => rfl, rfl, rfl, rfl⟩
  have : τ ≠ 2 := by rintro rfl; simp [townScen] at h
  simp [this]

end Waymax
