import Verif.Spec.Padding
import Verif.Props.PlanningGaps
/-
C140: neither the order in which the objects are stored nor padding objects have an influence on the simulation, the metrics, the
rewards, the expert and the IDM agent (real arithmetic for the metrics; the transition functions over any scalars).
-/

namespace Waymax

/-! ### Computations that end the same way -/

theorem Both.bind {A B A' B' : Type} {R : A → B → Prop} {R' : A' → B' → Prop} {x : Except Err A} {y : Except Err B}
    (h : Both R x y) {k : A → Except Err A'} {k' : B → Except Err B'} (hk : ∀ a b, R a b → Both R' (k a) (k' b)) :
    Both R' (x >>= k) (y >>= k') := by
  cases h with
  | ok h => exact hk _ _ h
  | error => exact .error

theorem Both.mono {A B : Type} {R R' : A → B → Prop} {x : Except Err A} {y : Except Err B}
    (h : Both R x y) (hR : ∀ a b, R a b → R' a b) : Both R' x y := by
  cases h with
  | ok h => exact .ok (hR _ _ h)
  | error => exact .error

/-- Same failures, and related results. -/
theorem Both.iff {A B : Type} {R : A → B → Prop} {x : Except Err A} {y : Except Err B} (h : Both R x y) :
    (∀ e, x = .error e ↔ y = .error e) ∧ (∀ a, x = .ok a → ∃ b, y = .ok b ∧ R a b) ∧
      ∀ b, y = .ok b → ∃ a, x = .ok a ∧ R a b := by
  cases h with
  | ok h =>
    refine ⟨by simp, fun a ha => ?_, fun b hb => ?_⟩
    · cases ha; exact ⟨_, rfl, h⟩
    · cases hb; exact ⟨_, rfl, h⟩
  | error => exact ⟨fun e => by simp, by simp, by simp⟩

theorem Both.foldlM {A B E : Type} {R : A → B → Prop} {k : A → E → Except Err A} {k' : B → E → Except Err B}
    (es : List E) (hk : ∀ a b, R a b → ∀ e ∈ es, Both R (k a e) (k' b e)) {a : A} {b : B} (h : R a b) :
    Both R (es.foldlM k a) (es.foldlM k' b) := by
  induction es generalizing a b with
  | nil => exact .ok h
  | cons e es ih =>
    rw [List.foldlM_cons, List.foldlM_cons]
    exact (hk a b h e (List.mem_cons_self)).bind fun a' b' h' =>
      ih (fun a b h e he => hk a b h e (List.mem_cons_of_mem _ he)) h'

section
variable {α D : Type} {n m T : Nat} {f : Fin n → Fin m}

theorem StoredAs.simFun {s : SimState α n T} {s' : SimState α m T} (h : StoredAs f s s') (i : Fin n) :
    s'.simTrajectory (f i) = s.simTrajectory i := funext (h.sim i)

theorem StoredAs.logFun {s : SimState α n T} {s' : SimState α m T} (h : StoredAs f s s') (i : Fin n) :
    s'.logTrajectory (f i) = s.logTrajectory i := funext (h.log i)

theorem StoredAs.cur [NeZero T] {s : SimState α n T} {s' : SimState α m T} (h : StoredAs f s s') (i : Fin n) :
    dynIndex (s'.simTrajectory (f i)) s'.timestep = dynIndex (s.simTrajectory i) s.timestep := by rw [h.simFun, h.clock]

theorem StoredAs.padCur [NeZero T] {s : SimState α n T} {s' : SimState α m T} (h : StoredAs f s s') {j : Fin m}
    (hj : ∀ i, f i ≠ j) (k : Int) : (dynIndex (s'.simTrajectory j) k).valid = false := h.padSim j hj _

/-- Objects are real or padding. -/
theorem real_or_padding (f : Fin n → Fin m) (j : Fin m) : (∃ i, f i = j) ∨ ∀ i, f i ≠ j := by
  by_cases h : ∃ i, f i = j
  · exact .inl h
  · exact .inr fun i hi => h ⟨i, hi⟩

/-! ### Transitions -/

section
variable [ScalarOps α]

/-- `reset` does not depend on the storage. -/
theorem C140_reset {cfg : EnvConfig} (hc : cfg.maxNumObjects = n) {s : SimState α n T} {s' : SimState α m T}
    (h : StoredAs f s s') : Both (StoredAs f) (reset cfg s) (reset (cfg.sized m) s') := by
  rw [reset_eq, reset_eq, if_pos hc, if_pos (show (cfg.sized m).maxNumObjects = m from rfl)]
  change Both _ (if cfg.initSteps ≤ T then _ else _) (if cfg.initSteps ≤ T then _ else _)
  split
  · refine .ok ⟨h.separate, ?_, h.log, h.objects, rfl, h.lights, h.paths, h.roadgraph, ?_, h.padLog, h.padObjects⟩
    · intro i t
      simp only [h.log]
      rfl
    · intro j hj t
      simp only
      split
      · exact h.padLog j hj t
      · rfl
  · exact .error

variable [NeZero T]

theorem applyUpdate_same {upd : Fin n → Upd α} {upd' : Fin m → Upd α} {sim ref : Traj α n T} {sim' ref' : Traj α m T}
    {c : Fin n → Bool} {c' : Fin m → Bool} (hu : SameEntries f upd upd') (hs : SameEntries f sim sim')
    (hr : SameEntries f ref ref') (hc : SameEntries f c c') (k : Int) (inj fb : Bool) :
    SameEntries f (applyTrajectoryUpdate upd sim ref c k inj fb) (applyTrajectoryUpdate upd' sim' ref' c' k inj fb) := by
  intro i
  unfold applyTrajectoryUpdate
  simp only [hu i, hs i, hr i, hc i]

theorem applyUpdate_padding {upd' : Fin m → Upd α} {sim' ref' : Traj α m T} {c' : Fin m → Bool} {j : Fin m}
    (hs : ∀ t, (sim' j t).valid = false) (hr : ∀ t, (ref' j t).valid = false) (k : Int) (inj fb : Bool) (t : Fin T) :
    (applyTrajectoryUpdate upd' sim' ref' c' k inj fb j t).valid = false := by
  unfold applyTrajectoryUpdate dynUpdateSlice dynSlice
  simp only
  split
  · have h1 : (dynIndex (sim' j) k).valid = false := hs _
    have h2 : (dynIndex (ref' j) (k + 1)).valid = false := hr _
    simp only [updatedPt, nextValid, h1, h2, Bool.and_false, Bool.false_eq_true, if_false, ite_self]
  · exact hs t

omit [ScalarOps α] in
theorem mask_same {cfg : EnvConfig} {s : SimState α n T} {s' : SimState α m T} (h : StoredAs f s s') :
    Both (SameEntries f) (envControlMask cfg s) (envControlMask (cfg.sized m) s') := by
  unfold envControlMask
  change Both _ (if cfg.controlledObject = .VALID ∧ cfg.allowNewObjectsAfterWarmup = false then _ else _)
    (if cfg.controlledObject = .VALID ∧ cfg.allowNewObjectsAfterWarmup = false then _ else
      getControlMask s'.objectMetadata cfg.controlledObject)
  split
  · refine .ok fun i => ?_
    simp only [h.sim]
    rfl
  · cases cfg.controlledObject
    · exact .ok fun i => by simp only [h.objects]
    · exact .ok fun i => by simp only [h.objects]
    · exact .ok fun i => by simp only [h.objects]
    · exact .error

/-- One `step`: the real objects move exactly as without padding, whatever actions the padding objects get; padding stays absent. -/
theorem C140_step {d : ∀ n, DynamicsModel α D n} (hd : OneByOne d) {cfg : EnvConfig} {s : SimState α n T}
    {s' : SimState α m T} (h : StoredAs f s s') {a : Fin n → Act D} {a' : Fin m → Act D} (ha : SameEntries f a a') :
    Both (StoredAs f) (step (d n) cfg s a) (step (d m) (cfg.sized m) s' a') := by
  unfold step
  refine (mask_same h).bind fun c c' hc => .ok ⟨h.separate, ?_, h.log, h.objects, ?_, h.lights, h.paths, h.roadgraph, ?_,
    h.padLog, h.padObjects⟩
  · intro i t
    refine congrFun (?_ : _ = _) t
    unfold DynamicsModel.forward
    simp only [h.clock]
    exact applyUpdate_same (hd.update f _ _ _ _ ha fun i => by rw [h.simFun]) h.simFun h.logFun hc _ _ _ i
  · simp only [h.clock]
  · intro j hj t
    exact applyUpdate_padding (h.padSim j hj) (h.padLog j hj) _ _ _ t

theorem stepMany_same_storage {d : ∀ n, DynamicsModel α D n} (hd : OneByOne d) {cfg : EnvConfig}
    {as : List (Fin n → Act D)} {as' : List (Fin m → Act D)} (ha : List.Forall₂ (SameEntries f) as as')
    {s : SimState α n T} {s' : SimState α m T} (h : StoredAs f s s') :
    Both (StoredAs f) (stepMany (d n) cfg s as) (stepMany (d m) (cfg.sized m) s' as') := by
  induction ha generalizing s s' with
  | nil => exact .ok h
  | cons ha _ ih => exact (C140_step hd h ha).bind fun _ _ h' => ih h'

/-- Whole episodes of any length. -/
theorem C140_episode {d : ∀ n, DynamicsModel α D n} (hd : OneByOne d) {cfg : EnvConfig} (hc : cfg.maxNumObjects = n)
    {as : List (Fin n → Act D)} {as' : List (Fin m → Act D)} (ha : List.Forall₂ (SameEntries f) as as')
    {s : SimState α n T} {s' : SimState α m T} (h : StoredAs f s s') :
    Both (StoredAs f) (reset cfg s >>= fun s0 => stepMany (d n) cfg s0 as)
      (reset (cfg.sized m) s' >>= fun s0 => stepMany (d m) (cfg.sized m) s0 as') :=
  (C140_reset hc h).bind fun _ _ h' => stepMany_same_storage hd ha h'

end

/-- Every model that is given by functions of a single object treats objects one by one. -/
theorem ofSingle_oneByOne (update : Act D → Pt α → Upd α)
    (inverse : {T : Nat} → [NeZero T] → (Fin T → Pt α) → Int → Act D) :
    OneByOne fun n => (DynamicsModel.ofSingle (n := n) update inverse) where
  update := fun f a a' c c' ha hc i => by simp only [DynamicsModel.ofSingle, ha i, hc i]
  inverse := fun f x x' md md' t hx _ i => by simp only [DynamicsModel.ofSingle, hx i]

/-- The built-in dynamics models are of that kind. -/
theorem C140_builtin : (OneByOne fun n => (stateDynamics : DynamicsModel α (StateRow α) n)) ∧
    (∀ P : DeltaParams, OneByOne fun n => (deltaGlobal P : DynamicsModel ℝ Delta3 n)) ∧
    (∀ P : DeltaParams, OneByOne fun n => (deltaLocal P : DynamicsModel ℝ Delta3 n)) ∧
    ∀ P : BicycleParams, OneByOne fun n => (bicycle P : DynamicsModel ℝ AccelSteer n) :=
  ⟨ofSingle_oneByOne (fun a _ => stateUpdate a) (fun traj t => stateInverse traj t), fun _ => ofSingle_oneByOne _ _, fun _ => ofSingle_oneByOne _ _, fun _ => ofSingle_oneByOne _ _⟩

/-- The expert's actions. -/
theorem C140_expert [NeZero T] {d : ∀ n, DynamicsModel α D n} (hd : OneByOne d) {s : SimState α n T} {s' : SimState α m T}
    (h : StoredAs f s s') : SameEntries f (inferExpertAction s (d n)) (inferExpertAction s' (d m)) := by
  unfold inferExpertAction
  refine hd.inverse f _ _ _ _ _ (fun i => ?_) h.objects
  funext t
  simp only [h.simFun, h.logFun, h.clock]

end

/-! ### Metrics -/

section
variable {n m T : Nat} [NeZero T] {f : Fin n → Fin m} {s : SimState ℝ n T} {s' : SimState ℝ m T}

theorem selectByOnehot_same (hf : Function.Injective f) {x : Fin n → ℝ} {x' : Fin m → ℝ} {c : Fin n → Bool} {c' : Fin m → Bool}
    (hx : ∀ i, x' (f i) = x i) (hc : ∀ i, c' (f i) = c i) (hp : ∀ j, (∀ i, f i ≠ j) → c' j = false) :
    selectByOnehot x' c' = selectByOnehot x c := by
  unfold selectByOnehot
  refine (Fintype.sum_of_injective f hf _ _ (fun j hj => ?_) fun i => ?_).symm
  · rw [hp j fun i hi => hj ⟨i, hi⟩]; simp
  · rw [hx, hc]

theorem selectByOnehotBool_same (hf : Function.Injective f) {x : Fin n → Bool} {x' : Fin m → Bool} {c : Fin n → Bool}
    {c' : Fin m → Bool} (hx : ∀ i, x' (f i) = x i) (hc : ∀ i, c' (f i) = c i) (hp : ∀ j, (∀ i, f i ≠ j) → c' j = false) :
    selectByOnehotBool x' c' = selectByOnehotBool x c := by
  unfold selectByOnehotBool
  have : (∑ j, if x' j && c' j then 1 else 0 : ℕ) = ∑ i, if x i && c i then 1 else 0 := by
    refine (Fintype.sum_of_injective f hf _ _ (fun j hj => ?_) fun i => ?_).symm
    · rw [hp j fun i hi => hj ⟨i, hi⟩]; simp
    · rw [hx, hc]
  rw [this]

omit [NeZero T] in
theorem StoredAs.sdc (h : StoredAs f s s') : (∀ i, (s'.objectMetadata (f i)).isSdc = (s.objectMetadata i).isSdc) ∧
    ∀ j, (∀ i, f i ≠ j) → (s'.objectMetadata j).isSdc = false :=
  ⟨fun i => by rw [h.objects], fun j hj => (h.padObjects j hj).1⟩

theorem pairwise_same (hf : Function.Injective f) {b : Fin n → Box} {b' : Fin m → Box} (hb : ∀ i, b' (f i) = b i) (i j : Fin n) :
    computePairwiseOverlaps b' (f i) (f j) ↔ computePairwiseOverlaps b i j := by
  unfold computePairwiseOverlaps
  simp only [hf.eq_iff, hb]

theorem overlap_same (h : StoredAs f s s') : SameEntries f (overlapMetric s) (overlapMetric s') := by
  classical
  intro j
  unfold overlapMetric computeOverlap
  simp only [h.cur]
  congr 1
  have : (∑ i, if computePairwiseOverlaps (fun k => (dynIndex (s'.simTrajectory k) s'.timestep).box) i (f j) ∧
        (dynIndex (s'.simTrajectory i) s'.timestep).valid = true then 1 else 0 : ℕ) =
      ∑ i, if computePairwiseOverlaps (fun k => (dynIndex (s.simTrajectory k) s.timestep).box) i j ∧
        (dynIndex (s.simTrajectory i) s.timestep).valid = true then 1 else 0 := by
    refine (Fintype.sum_of_injective f h.separate _ _ (fun i hi => ?_) fun i => ?_).symm
    · rw [h.padCur fun k hk => hi ⟨k, hk⟩]; simp
    · rw [pairwise_same h.separate (b := fun k => (dynIndex (s.simTrajectory k) s.timestep).box) fun k => by rw [h.cur], h.cur]
  rw [this]

theorem logDivergence_same (h : StoredAs f s s') : SameEntries f (logDivergenceMetric s) (logDivergenceMetric s') := by
  intro i
  unfold logDivergenceMetric
  simp only [h.simFun, h.logFun, h.clock]

theorem offroad_same (h : StoredAs f s s') : Both (SameEntries f) (offroadMetric s) (offroadMetric s') := by
  unfold offroadMetric
  rw [h.roadgraph]
  match s.roadgraphPoints with
  | none => exact .error
  | some [] => exact .error
  | some (p :: rg) =>
    refine .ok fun i => ?_
    rw [h.cur]

theorem kinematics_same (K : KimParams) (h : StoredAs f s s') :
    SameEntries f (kinematicsInfeasibilityMetric K s) (kinematicsInfeasibilityMetric K s') := by
  intro i
  unfold kinematicsInfeasibilityMetric
  simp only [h.simFun, h.clock]

theorem sdcXyCurrent_same (h : StoredAs f s s') : sdcXyCurrent s' = sdcXyCurrent s := by
  unfold sdcXyCurrent
  rw [selectByOnehot_same h.separate (fun i => by rw [h.cur]) h.sdc.1 h.sdc.2,
    selectByOnehot_same h.separate (fun i => by rw [h.cur]) h.sdc.1 h.sdc.2]

omit [NeZero T] in
theorem sdcXyLog_same (h : StoredAs f s s') (t : Fin T) : sdcXyLog s' t = sdcXyLog s t := by
  unfold sdcXyLog
  rw [selectByOnehot_same h.separate (fun i => by rw [h.log]) h.sdc.1 h.sdc.2,
    selectByOnehot_same h.separate (fun i => by rw [h.log]) h.sdc.1 h.sdc.2]

theorem sdcValid_same (h : StoredAs f s s') : sdcValidCurrent s' = sdcValidCurrent s :=
  selectByOnehotBool_same h.separate (fun i => by rw [h.cur]) h.sdc.1 h.sdc.2

theorem wrongWay_same (h : StoredAs f s s') : wrongWayMetric s' = wrongWayMetric s := by
  unfold wrongWayMetric
  simp only [h.paths, sdcXyCurrent_same h]

theorem offRoute_same (h : StoredAs f s s') : offRouteMetric s' = offRouteMetric s := by
  unfold offRouteMetric
  simp only [h.paths, sdcXyCurrent_same h, sdcValid_same h]

theorem progression_same (h : StoredAs f s s') : progressionMetric s' = progressionMetric s := by
  unfold progressionMetric
  simp only [h.paths, sdcXyCurrent_same h, sdcValid_same h, sdcXyLog_same h]

theorem scalar_same (f : Fin n → Fin m) {x y : Except Err MetricResult} (h : y = x) :
    Both (SameMetric f) (x >>= fun r => .ok (.scalar r)) (y >>= fun r => .ok (.scalar r)) := by
  subst h
  cases y with
  | ok r => exact .ok .scalar
  | error e => exact .error

/-- Two registries whose metrics agree on differently stored scenarios. -/
def SameRegistry (T : Nat) (f : Fin n → Fin m) (reg : Dict (Metric n T)) (reg' : Dict (Metric m T)) : Prop :=
  List.Forall₂ (fun e e' => e.1 = e'.1 ∧ ∀ s s', StoredAs f s s' → Both (SameMetric f) (e.2 s) (e'.2 s')) reg reg'

/-- The seven built-in metrics: the same names, and on the same scenario the same results for the real objects and for the SDC. -/
theorem C140_metrics (f : Fin n → Fin m) : SameRegistry T f builtinMetrics builtinMetrics := by
  unfold SameRegistry builtinMetrics
  refine .cons ⟨rfl, fun s s' h => .ok (.perObject (logDivergence_same h))⟩ <|
    .cons ⟨rfl, fun s s' h => .ok (.perObject (overlap_same h))⟩ <|
    .cons ⟨rfl, fun s s' h => (offroad_same h).bind fun _ _ hr => .ok (.perObject hr)⟩ <|
    .cons ⟨rfl, fun s s' h => .ok (.perObject (kinematics_same _ h))⟩ <|
    .cons ⟨rfl, fun s s' h => scalar_same f (wrongWay_same h)⟩ <|
    .cons ⟨rfl, fun s s' h => scalar_same f (progression_same h)⟩ <|
    .cons ⟨rfl, fun s s' h => scalar_same f (offRoute_same h)⟩ .nil

/-! ### Dictionaries of metrics and rewards -/

theorem has_same {A B : Type} {R : String × A → String × B → Prop} (hR : ∀ e e', R e e' → e.1 = e'.1) {d : Dict A} {d' : Dict B}
    (h : List.Forall₂ R d d') (key : String) : d'.has key = d.has key := by
  induction h with
  | nil => rfl
  | cons he _ ih =>
    unfold Dict.has at ih ⊢
    rw [List.any_cons, List.any_cons, ih, hR _ _ he]

theorem get_same {A B : Type} {Q : A → B → Prop} {d : Dict A} {d' : Dict B}
    (h : List.Forall₂ (fun e e' => e.1 = e'.1 ∧ Q e.2 e'.2) d d') (key : String) :
    (d.get? key = none ∧ d'.get? key = none) ∨ ∃ a b, d.get? key = some a ∧ d'.get? key = some b ∧ Q a b := by
  induction h with
  | nil => exact .inl ⟨rfl, rfl⟩
  | @cons e e' l l' he _ ih =>
    unfold Dict.get? at ih ⊢
    rw [List.find?_cons, List.find?_cons, ← he.1]
    by_cases hk : (e.1 == key) = true
    · rw [hk]; exact .inr ⟨_, _, rfl, rfl, he.2⟩
    · rw [Bool.not_eq_true] at hk
      rw [hk]; exact ih

theorem set_same {A B : Type} {Q : A → B → Prop} {d : Dict A} {d' : Dict B}
    (h : List.Forall₂ (fun e e' => e.1 = e'.1 ∧ Q e.2 e'.2) d d') (key : String) {a : A} {b : B} (hab : Q a b) :
    List.Forall₂ (fun e e' => e.1 = e'.1 ∧ Q e.2 e'.2) (d.set key a) (d'.set key b) := by
  unfold Dict.set
  rw [has_same (fun _ _ h => h.1) h]
  split
  · rename_i hk
    clear hk
    induction h with
    | nil => exact .nil
    | @cons e e' l l' he hl ih =>
      rw [List.map_cons, List.map_cons]
      refine .cons ?_ ih
      obtain ⟨k1, v1⟩ := e
      obtain ⟨k2, v2⟩ := e'
      obtain ⟨he1, he2⟩ := he
      simp only at he1 he2 ⊢
      subst he1
      by_cases hk : (k1 == key) = true
      · rw [if_pos hk, if_pos hk]; exact ⟨rfl, hab⟩
      · rw [if_neg hk, if_neg hk]; exact ⟨rfl, he2⟩
  · exact List.rel_append h (.cons ⟨rfl, hab⟩ .nil)

omit [NeZero T] in
/-- The metrics dictionary of the environment, for any list of names and any registry of such metrics. -/
theorem C140_run_metrics {reg : Dict (Metric n T)} {reg' : Dict (Metric m T)} (hreg : SameRegistry T f reg reg')
    (names : List String) (h : StoredAs f s s') :
    Both (SameMetrics f) (envMetrics reg names s) (envMetrics reg' names s') := by
  unfold envMetrics runMetrics
  refine Both.foldlM names (fun d d' hd name _ => ?_) (show SameMetrics f [] [] from .nil)
  rcases get_same (Q := fun (x : Metric n T) (y : Metric m T) => ∀ s s', StoredAs f s s' → Both (SameMetric f) (x s) (y s')) hreg name with ⟨h1, h2⟩ | ⟨a, b, h1, h2, hab⟩
  · rw [h1, h2]; exact .error
  · rw [h1, h2]
    exact (hab s s' h).bind fun r r' hr => .ok (set_same hd name hr)

theorem masked_same {r : MetricArr n} {r' : MetricArr m} (h : SameMetric f r r') (i : Fin n) : r'.masked (f i) = r.masked i := by
  cases h with
  | perObject h => simp only [MetricArr.masked, h i]
  | scalar => rfl

omit [NeZero T] in
/-- Rewards: every real object gets the reward it gets without padding, and padding gets none. -/
theorem C140_reward {D : Type} {reg : Dict (Metric n T)} {reg' : Dict (Metric m T)} (hreg : SameRegistry T f reg reg')
    (cfg : EnvConfig) (computeReward : Bool) (rewards : Dict ℝ) (h : StoredAs f s s') (a : Fin n → Act D)
    (a' : Fin m → Act D) :
    Both (SameRewards f) (envReward reg cfg computeReward rewards s a)
      (envReward reg' (cfg.sized m) computeReward rewards s' a') := by
  unfold envReward
  cases computeReward with
  | false => exact .ok ⟨fun _ => rfl, fun _ _ => rfl⟩
  | true =>
    have hmask : Both (fun c c' => SameEntries f c c' ∧ ∀ j, (∀ i, f i ≠ j) → c' j = false)
        (getControlMask s.objectMetadata cfg.controlledObject) (getControlMask s'.objectMetadata cfg.controlledObject) := by
      cases cfg.controlledObject
      · exact .ok ⟨fun i => by simp only [h.objects], fun j hj => (h.padObjects j hj).1⟩
      · exact .ok ⟨fun i => by simp only [h.objects], fun j hj => (h.padObjects j hj).2.1⟩
      · exact .ok ⟨fun i => by simp only [h.objects], fun j hj => (h.padObjects j hj).2.2⟩
      · exact .error
    refine hmask.bind fun c c' hc => ?_
    unfold linearReward
    refine (C140_run_metrics hreg _ h).bind fun d d' hd => ?_
    refine Both.foldlM rewards (fun r r' hr e _ => ?_) ⟨fun _ => rfl, fun _ _ => rfl⟩
    rcases get_same (Q := SameMetric f) hd e.1 with ⟨h1, h2⟩ | ⟨x, y, h1, h2, hxy⟩
    · rw [h1, h2]; exact .error
    · rw [h1, h2]
      refine .ok ⟨fun i => ?_, fun j hj => ?_⟩
      · simp only [hr.1 i, masked_same hxy, hc.1 i]
      · simp only [hr.2 j hj, hc.2 j hj]; simp

/-! ### Rollouts -/

/-- Two actors that decide the same for the real objects. -/
structure SameActor {D X K P : Type} (f : Fin n → Fin m) (A : Actor (SimState ℝ n T) (Fin n → Act D) X K P (Fin n → Bool))
    (A' : Actor (SimState ℝ m T) (Fin m → Act D) X K P (Fin m → Bool)) : Prop where
  init : ∀ s s' k, StoredAs f s s' → A'.init k s' = A.init k s
  state : ∀ s s' p x k, StoredAs f s s' → (A'.selectAction p s' x k).actorState = (A.selectAction p s x k).actorState
  action : ∀ s s' p x k, StoredAs f s s' → SameEntries f (A.selectAction p s x k).action (A'.selectAction p s' x k).action

/-- The expert is such an actor, whatever objects it claims to control. -/
theorem C140_expert_actor {D K P : Type} {d : ∀ n, DynamicsModel ℝ D n} (hd : OneByOne d) (f : Fin n → Fin m)
    (ic : SimState ℝ n T → Fin n → Bool) (ic' : SimState ℝ m T → Fin m → Bool) :
    SameActor f (expertActor (K := K) (P := P) (d n) ic) (expertActor (d m) ic') :=
  ⟨fun _ _ _ _ => rfl, fun _ _ _ _ _ _ => rfl, fun _ _ _ _ _ h => C140_expert hd h⟩

/-- Whole rollouts, with the environment's metrics and rewards: the same number of entries, and entry by entry the same for the
real objects. `zeros` makes the padding action of the last entry. -/
theorem C140_rollout {D X K P : Type} {d : ∀ n, DynamicsModel ℝ D n} (hd : OneByOne d) {cfg : EnvConfig}
    (hc : cfg.maxNumObjects = n) {reg : Dict (Metric n T)} {reg' : Dict (Metric m T)} (hreg : SameRegistry T f reg reg')
    (names : List String) (computeReward : Bool) (rewards : Dict ℝ)
    {A : Actor (SimState ℝ n T) (Fin n → Act D) X K P (Fin n → Bool)}
    {A' : Actor (SimState ℝ m T) (Fin m → Act D) X K P (Fin m → Bool)} (hA : SameActor f A A')
    (split : K → K × K) (params : P) (zeros : Act D → Act D) (h : StoredAs f s s') (rng : K) (numSteps : Nat) :
    Both (List.Forall₂ (SameEntry (SameMetrics f) (SameRewards f) f))
      (rollout (baseEnv (d n) cfg (envMetrics reg names) (envReward reg cfg computeReward rewards)) A split params
        (fun a i => zeros (a i)) s rng numSteps)
      (rollout (baseEnv (d m) (cfg.sized m) (envMetrics reg' names) (envReward reg' (cfg.sized m) computeReward rewards)) A'
        split params (fun a i => zeros (a i)) s' rng numSteps) := by
  unfold rollout
  refine (C140_reset hc h).bind fun s0 s0' h0 => ?_
  let R : RolloutCarry (SimState ℝ n T) (SimState ℝ n T) X K → RolloutCarry (SimState ℝ m T) (SimState ℝ m T) X K → Prop :=
    fun c c' => StoredAs f c.state c'.state ∧ StoredAs f c.observation c'.observation ∧ c'.rng = c.rng ∧
      c'.actorState = c.actorState
  let Q := SameEntry (α := ℝ) (D := D) (T := T) (SameMetrics f) (SameRewards f) f
  have hstep : ∀ c c', R c c' → Both (fun x x' => R x.1 x'.1 ∧ Q x.2 x'.2)
      (rolloutStep (baseEnv (d n) cfg (envMetrics reg names) (envReward reg cfg computeReward rewards)) A split params c)
      (rolloutStep (baseEnv (d m) (cfg.sized m) (envMetrics reg' names) (envReward reg' (cfg.sized m) computeReward rewards)) A'
        split params c') := by
    rintro ⟨st, ob, k, x⟩ ⟨st', ob', k', x'⟩ ⟨h1, h2, h3, h4⟩
    simp only at h1 h2 h3 h4
    subst h3 h4
    unfold rolloutStep
    refine (C140_step hd h1 (hA.action _ _ _ _ _ h1)).bind fun t t' ht => ?_
    refine (C140_run_metrics hreg names h1).bind fun M M' hM => ?_
    refine (C140_reward hreg cfg computeReward rewards h1 _ _).bind fun r r' hr => ?_
    exact .ok ⟨⟨ht, ht, rfl, hA.state _ _ _ _ _ h1⟩, ⟨hA.action _ _ _ _ _ h1, h1, h2, hM, hr⟩⟩
  have hscan : ∀ k c c', R c c' → Both (fun x x' => R x.1 x'.1 ∧ List.Forall₂ Q x.2 x'.2)
      (scan (rolloutStep (baseEnv (d n) cfg (envMetrics reg names) (envReward reg cfg computeReward rewards)) A split params) k c)
      (scan (rolloutStep (baseEnv (d m) (cfg.sized m) (envMetrics reg' names) (envReward reg' (cfg.sized m) computeReward rewards))
        A' split params) k c') := by
    intro k
    induction k with
    | zero => exact fun c c' hcc => .ok ⟨hcc, .nil⟩
    | succ k ih =>
      intro c c' hcc
      unfold scan
      refine (hstep c c' hcc).bind fun x x' hx => ?_
      exact (ih _ _ hx.1).bind fun y y' hy => .ok ⟨hy.1, .cons hx.2 hy.2⟩
  simp only [hA.init _ _ _ h0]
  refine (hscan numSteps { state := s0, observation := s0, rng := (split rng).2, actorState := A.init (split rng).1 s0 }
    { state := s0', observation := s0', rng := (split rng).2, actorState := A.init (split rng).1 s0 }
    ⟨h0, h0, rfl, rfl⟩).bind fun x x' hx => ?_
  obtain ⟨c, out⟩ := x
  obtain ⟨c', out'⟩ := x'
  obtain ⟨hR, hout⟩ := hx
  simp only at hR hout ⊢
  have hlast : (out.getLast? = none ∧ out'.getLast? = none) ∨ ∃ e e', out.getLast? = some e ∧ out'.getLast? = some e' ∧ Q e e' := by
    rw [List.getLast?_eq_head?_reverse, List.getLast?_eq_head?_reverse]
    have := List.rel_reverse hout
    cases hr : out.reverse <;> cases hr' : out'.reverse <;> rw [hr, hr'] at this <;> cases this
    · exact .inl ⟨rfl, rfl⟩
    · rename_i hq _; exact .inr ⟨_, _, rfl, rfl, hq⟩
  rcases hlast with ⟨h1, h2⟩ | ⟨e, e', h1, h2, hq⟩
  · rw [h1, h2]; exact .error
  · rw [h1, h2]
    have hz : SameEntries f (fun i => zeros (e.action i)) (fun i => zeros (e'.action i)) := fun i => congrArg zeros (hq.action i)
    refine (C140_run_metrics hreg names hR.1).bind fun M M' hM => ?_
    refine (C140_reward hreg cfg computeReward rewards hR.1 _ _).bind fun r r' hr => ?_
    exact .ok (List.rel_append hout (.cons ⟨hz, hR.1, hR.2.1, hM, hr⟩ .nil))

/-! ### The IDM agent -/

theorem le_listMin (xs : List (WithTop ℝ)) (c : WithTop ℝ) : c ≤ listMin xs ↔ ∀ x ∈ xs, c ≤ x := by
  induction xs with
  | nil => simp [listMin]
  | cons x xs ih =>
    change c ≤ min x (listMin xs) ↔ _
    rw [le_min_iff, ih]; simp

theorem listMin_same (f : Fin n → Fin m) {g : Fin n → WithTop ℝ} {g' : Fin m → WithTop ℝ} (hg : ∀ i, g' (f i) = g i)
    (hp : ∀ j, (∀ i, f i ≠ j) → g' j = ⊤) : listMin (List.ofFn g') = listMin (List.ofFn g) := by
  refine eq_of_forall_le_iff fun c => ?_
  simp only [le_listMin, List.forall_mem_ofFn_iff]
  constructor
  · intro h i; rw [← hg]; exact h _
  · intro h j
    rcases real_or_padding f j with ⟨i, rfl⟩ | hj
    · rw [hg]; exact h i
    · rw [hp j hj]; exact le_top

theorem any_same (f : Fin n → Fin m) {g : Fin n → Bool} {g' : Fin m → Bool} (hg : ∀ i, g' (f i) = g i)
    (hp : ∀ j, (∀ i, f i ≠ j) → g' j = false) : (List.ofFn g').any id = (List.ofFn g).any id := by
  rw [Bool.eq_iff_iff]
  simp only [List.any_eq_true, List.mem_ofFn, id]
  constructor
  · rintro ⟨b, ⟨j, rfl⟩, hb⟩
    rcases real_or_padding f j with ⟨i, rfl⟩ | hj
    · exact ⟨_, ⟨i, rfl⟩, by rw [← hg]; exact hb⟩
    · rw [hp j hj] at hb; cases hb
  · rintro ⟨b, ⟨i, rfl⟩, hb⟩
    exact ⟨_, ⟨f i, rfl⟩, by rw [hg]; exact hb⟩

theorem idmCollision_same (hf : Function.Injective f) {c : Fin n → Pt ℝ} {c' : Fin m → Pt ℝ} (hc : ∀ i, c' (f i) = c i)
    (i : Fin n) (w : Pt ℝ) (j : Fin n) : idmCollision c' (f i) w (f j) = idmCollision c i w j := by
  unfold idmCollision
  rw [hc]
  simp only [hf.eq_iff]

theorem idmCollision_padding {c' : Fin m → Pt ℝ} {j : Fin m} (hj : (c' j).valid = false) (i : Fin m) (w : Pt ℝ) :
    idmCollision c' i w j = false := by
  unfold idmCollision
  simp [hj]

theorem idmAccel_same (hf : Function.Injective f) (P : IdmParams) {log : Fin n → Fin T → Pt ℝ} {log' : Fin m → Fin T → Pt ℝ}
    (hl : ∀ i, log' (f i) = log i) {c : Fin n → Pt ℝ} {c' : Fin m → Pt ℝ} (hc : ∀ i, c' (f i) = c i)
    (hp : ∀ j, (∀ i, f i ≠ j) → (c' j).valid = false) (i : Fin n) : idmAccel P log' c' (f i) = idmAccel P log c i := by
  unfold idmAccel
  rw [hl, hc]
  have hvel : ∀ ws : List (Pt ℝ), computeLeadVelocity (fun j => (c' j).speed) (fun j => (c' j).valid)
        (ws.map fun w => idmCollision c' (f i) w) =
      computeLeadVelocity (fun j => (c j).speed) (fun j => (c j).valid) (ws.map fun w => idmCollision c i w) := by
    intro ws
    have : ((ws.map fun w => idmCollision c' (f i) w).map fun cc : Fin m → Bool =>
          listMin (List.ofFn fun j => if (c' j).valid then orInf (cc j) (c' j).speed else (⊤ : WithTop ℝ))) =
        (ws.map fun w => idmCollision c i w).map fun cc : Fin n → Bool =>
          listMin (List.ofFn fun j => if (c j).valid then orInf (cc j) (c j).speed else (⊤ : WithTop ℝ)) := by
      rw [List.map_map, List.map_map]
      refine List.map_congr_left fun w _ => ?_
      refine listMin_same f (fun k => ?_) fun j hj => ?_
      · simp only [hc]
        rw [idmCollision_same hf hc]
      · rw [hp j hj]; rfl
    unfold computeLeadVelocity
    simp only [this]
  have hany : ∀ w, (List.ofFn fun j => idmCollision c' (f i) w j).any id = (List.ofFn fun j => idmCollision c i w j).any id :=
    fun w => any_same f (fun k => idmCollision_same hf hc i w k) fun j hj => idmCollision_padding (hp j hj) _ _
  simp only [hvel, hany]

/-- The IDM agent: its new speed, the pose it drives to, and its claims. -/
theorem C140_idm (P : IdmParams) (h : StoredAs f s s') :
    SameEntries f (fun i => idmUpdateSpeed P s i) (fun j => idmUpdateSpeed P s' j) ∧
    SameEntries f (waypointUpdate P.invalidateOnEnd (idmSpeeds P) s) (waypointUpdate P.invalidateOnEnd (idmSpeeds P) s') ∧
    SameEntries f (defaultControlFunc s) (defaultControlFunc s') := by
  have h1 : SameEntries f (fun i => idmUpdateSpeed P s i) (fun j => idmUpdateSpeed P s' j) := by
    intro i
    unfold idmUpdateSpeed
    simp only
    rw [idmAccel_same h.separate P h.logFun (c := fun j => dynIndex (s.simTrajectory j) s.timestep) h.cur
      (fun j hj => h.padCur hj _), h.cur]
  refine ⟨h1, fun i => ?_, fun i => by simp only [defaultControlFunc, h.objects]⟩
  have h2 : idmSpeeds P s' (f i) = idmSpeeds P s i := by
    unfold idmSpeeds
    rw [show idmUpdateSpeed P s' (f i) = idmUpdateSpeed P s i from h1 i]
  unfold waypointUpdate
  simp only [h2, h.cur, h.logFun]

end

end Waymax
