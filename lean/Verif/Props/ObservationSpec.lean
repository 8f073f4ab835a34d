import Verif.Spec.ObservationSpec
import Verif.Props.Batch
import Verif.Lemmas.Env

/-! C175: Observations are as the environment declares them. -/

namespace Waymax
section
variable {α : Type}

/-- The layout with a clock without axes. -/
def clockless (leaves : List (String × List Nat)) : List (String × List Nat) :=
  leaves.map fun leaf => (leaf.1, if leaf.1 = "timestep" then [] else leaf.2)

theorem trajLeaves_eq {t u : TrajNd α} {sh : List Nat} (ht : t.HasShape sh) (hu : u.HasShape sh) (s : String) :
    t.leafShapes s = u.leafShapes s := by
  simp only [TrajNd.leafShapes, ht.x, ht.y, ht.z, ht.velX, ht.velY, ht.yaw, ht.valid, ht.timestampMicros, ht.length, ht.width, ht.height,
    hu.x, hu.y, hu.z, hu.velX, hu.velY, hu.yaw, hu.valid, hu.timestampMicros, hu.length, hu.width, hu.height]

/-- The parts of a state other than the simulated trajectory and the clock are the same. -/
structure SameRest (s s' : StateNd α) : Prop where
  log : s'.logTrajectory = s.logTrajectory
  lights : s'.logTrafficLight = s.logTrafficLight
  metadata : s'.objectMetadata = s.objectMetadata
  paths : s'.sdcPaths = s.sdcPaths
  roadgraph : s'.roadgraphPoints = s.roadgraphPoints

theorem SameRest.trans {a b c : StateNd α} (h : SameRest a b) (k : SameRest b c) : SameRest a c :=
  ⟨k.log.trans h.log, k.lights.trans h.lights, k.metadata.trans h.metadata, k.paths.trans h.paths, k.roadgraph.trans h.roadgraph⟩

theorem leaves_of_rest {pre : List Nat} {n T : Nat} {s s' : StateNd α} (h : s.Shaped pre n T) (h' : s'.Shaped pre n T)
    (ht : s'.timestep.shape = []) (hr : SameRest s s') : s'.leafShapes = clockless s.leafShapes := by
  have e : s'.simTrajectory.leafShapes "sim_trajectory" = s.simTrajectory.leafShapes "sim_trajectory" := trajLeaves_eq h'.sim h.sim _
  unfold StateNd.leafShapes clockless
  rw [e, hr.log, hr.lights, hr.metadata, hr.paths, hr.roadgraph, ht]
  rcases s.sdcPaths with _ | _ <;> rcases s.roadgraphPoints with _ | _ <;> simp [TrajNd.leafShapes, MetaNd.leafShapes]

section
variable [ScalarOps α]

theorem bind_ok {β γ : Type} {x : Except Err β} {f : β → Except Err γ} {c : γ} (h : x >>= f = .ok c) :
    ∃ b, x = .ok b ∧ f b = .ok c := by
  rcases x with e | b
  · cases h
  · exact ⟨b, rfl, h⟩

theorem resetNd_rest {cfg : EnvConfig} {s s' : StateNd α} (h : resetNd cfg s = .ok s') : SameRest s s' := by
  unfold resetNd at h
  obtain ⟨_, _, h⟩ := bind_ok h
  obtain ⟨_, _, h⟩ := bind_ok h
  unfold updateStateByLogNd at h
  obtain ⟨_, _, h⟩ := bind_ok h
  cases h
  exact ⟨rfl, rfl, rfl, rfl, rfl⟩

theorem stepNd_rest {d : DynNd α} {cfg : EnvConfig} {s s' : StateNd α} {a : ActNd α} (h : stepNd d cfg s a = .ok s') : SameRest s s' := by
  unfold stepNd at h
  obtain ⟨_, _, h⟩ := bind_ok h
  obtain ⟨_, _, h⟩ := bind_ok h
  cases h
  exact ⟨rfl, rfl, rfl, rfl, rfl⟩

theorem stepManyNd_rest {d : DynNd α} {cfg : EnvConfig} (as : List (ActNd α)) :
    ∀ {s s' : StateNd α}, stepManyNd d cfg s as = .ok s' → SameRest s s' := by
  induction as with
  | nil => intro s s' h; cases h; exact ⟨rfl, rfl, rfl, rfl, rfl⟩
  | cons a as ih =>
    intro s s' h
    obtain ⟨_, h1, h2⟩ := bind_ok h
    exact (stepNd_rest h1).trans (ih h2)

variable {pre : List Nat} {n T : Nat} [NeZero T]

omit [NeZero T] in
theorem resetNd_leaves {cfg : EnvConfig} {s s' : StateNd α} (hs : s.Shaped pre n T) (h : resetNd cfg s = .ok s') :
    s'.Shaped pre n T ∧ s'.leafShapes = clockless s.leafShapes := by
  have hb := C105_reset (pre := pre) cfg hs
  rw [h] at hb
  exact ⟨hb.1, leaves_of_rest hs hb.1 hb.2.1 (resetNd_rest h)⟩

theorem episode_leaves {D : Type} {dn : DynNd α} {dim : Nat} {row : (Nat → α) → D} {d : DynamicsModel α D n}
    (hd : dn.Refines n dim row d) {cfg : EnvConfig} {s s' : StateNd α} (hs : s.Shaped pre n T) {as : List (ActNd α)}
    (ha : ∀ a ∈ as, a.Shaped pre n dim) (h : (resetNd cfg s >>= fun r => stepManyNd dn cfg r as) = .ok s') :
    s'.leafShapes = clockless s.leafShapes := by
  have hb := C105_episode (pre := pre) hd cfg hs as ha
  rw [h] at hb
  obtain ⟨r, h1, h2⟩ := bind_ok h
  exact leaves_of_rest hs hb.1 hb.2.1 ((resetNd_rest h1).trans (stepManyNd_rest as h2))

omit [NeZero T] in
theorem spec_eq {cfg : EnvConfig} {sample : StateNd α} (hs : sample.Shaped pre n T) {spec : List (String × List Nat)}
    (h : observationSpec cfg sample = .ok spec) :
    spec = (clockless sample.leafShapes).map fun leaf => (leaf.1, leaf.2.drop pre.length) := by
  unfold observationSpec at h
  obtain ⟨r, h1, h⟩ := bind_ok h
  obtain ⟨hr, e⟩ := resetNd_leaves hs h1
  cases h
  simp only [observeNd]
  have hl : r.shape = pre := by
    unfold StateNd.shape
    rw [hr.metadata.ids]
    simp
  rw [e, hl]

omit [ScalarOps α] in
theorem clock_mem (s : StateNd α) : ("timestep", s.timestep.shape) ∈ s.leafShapes := by
  simp [StateNd.leafShapes]

theorem prefix_drop {p q : List Nat} (h : p <+: q) : p ++ q.drop p.length = q := by
  obtain ⟨r, rfl⟩ := h
  simp

omit [NeZero T] in
theorem conforms_iff {cfg : EnvConfig} {sample s s' : StateNd α} (hsample : sample.Loaded pre n T)
    (same : s.leafShapes = sample.leafShapes) {declared : List (String × List Nat)} (hspec : observationSpec cfg sample = .ok declared)
    (e1 : s'.leafShapes = clockless s.leafShapes) : Conforms pre declared (observeNd s').leafShapes ↔ pre = [] := by
  have e2 := spec_eq hsample.shaped hspec
  constructor
  · intro hc
    unfold Conforms observeNd at hc
    rw [e1, e2, same] at hc
    have hm : ("timestep", ([] : List Nat)) ∈ clockless sample.leafShapes := by
      unfold clockless
      exact List.mem_map.2 ⟨_, clock_mem sample, by simp⟩
    rw [hc] at hm
    obtain ⟨l, _, hl⟩ := List.mem_map.1 hm
    have := congrArg Prod.snd hl
    simp only [List.append_eq_nil_iff] at this
    exact this.1
  · rintro rfl
    unfold Conforms observeNd
    rw [e1, e2, same]
    simp

omit [NeZero T] in
theorem conforms_rest {cfg : EnvConfig} {sample s s' : StateNd α} (hsample : sample.Loaded pre n T)
    (same : s.leafShapes = sample.leafShapes) {declared : List (String × List Nat)} (hspec : observationSpec cfg sample = .ok declared)
    (e1 : s'.leafShapes = clockless s.leafShapes) : Conforms pre (withoutClock declared) (withoutClock (observeNd s').leafShapes) := by
  have e2 := spec_eq hsample.shaped hspec
  unfold Conforms observeNd withoutClock
  rw [e1, e2, same]
  have hp := hsample.batched
  generalize sample.leafShapes = leaves at hp
  clear e1 e2 same hspec
  unfold clockless
  induction leaves with
  | nil => rfl
  | cons l ls ih =>
    have ih := ih fun q hq => hp q (by simp [hq])
    simp only [List.map_cons]
    by_cases hl : l.1 = "timestep"
    · rw [List.filter_cons_of_neg (by simp [hl]), List.filter_cons_of_neg (by simp [hl])]
      exact ih
    · rw [List.filter_cons_of_pos (by simp [hl]), List.filter_cons_of_pos (by simp [hl]), List.map_cons, ih]
      simp only [if_neg hl, prefix_drop (hp l (by simp))]

/-- Observations during an episode conform to what the environment declares exactly when there are no batch axes: for every sample
scenario, every scenario with arrays of the same shapes, every dynamics model and every sequence of actions. -/
theorem C175_exact {D : Type} {dn : DynNd α} {dim : Nat} {row : (Nat → α) → D} {d : DynamicsModel α D n}
    (hd : dn.Refines n dim row d) {cfg : EnvConfig} {sample s s' : StateNd α} (hsample : sample.Loaded pre n T) (hs : s.Loaded pre n T)
    (same : s.leafShapes = sample.leafShapes) {declared : List (String × List Nat)} (hspec : observationSpec cfg sample = .ok declared)
    {as : List (ActNd α)} (ha : ∀ a ∈ as, a.Shaped pre n dim)
    (h : (resetNd cfg s >>= fun r => stepManyNd dn cfg r as) = .ok s') :
    Conforms pre declared (observeNd s').leafShapes ↔ pre = [] :=
  conforms_iff hsample same hspec (episode_leaves hd hs.shaped ha h)

/-- Whatever the batch axes, the arrays other than the clock conform to what the environment declares. -/
theorem C175_batched_partial {D : Type} {dn : DynNd α} {dim : Nat} {row : (Nat → α) → D} {d : DynamicsModel α D n}
    (hd : dn.Refines n dim row d) {cfg : EnvConfig} {sample s s' : StateNd α} (hsample : sample.Loaded pre n T) (hs : s.Loaded pre n T)
    (same : s.leafShapes = sample.leafShapes) {declared : List (String × List Nat)} (hspec : observationSpec cfg sample = .ok declared)
    {as : List (ActNd α)} (ha : ∀ a ∈ as, a.Shaped pre n dim)
    (h : (resetNd cfg s >>= fun r => stepManyNd dn cfg r as) = .ok s') :
    Conforms pre (withoutClock declared) (withoutClock (observeNd s').leafShapes) :=
  conforms_rest hsample same hspec (episode_leaves hd hs.shaped ha h)

omit [NeZero T] in
/-- The declared layout does not depend on which scenario is the sample, only on the shapes of its arrays. -/
theorem C175_sample {cfg : EnvConfig} {sample s : StateNd α} (hsample : sample.Loaded pre n T) (hs : s.Loaded pre n T)
    (same : s.leafShapes = sample.leafShapes) {declared declared' : List (String × List Nat)}
    (h : observationSpec cfg sample = .ok declared) (h' : observationSpec cfg s = .ok declared') : declared' = declared := by
  rw [spec_eq hsample.shaped h, spec_eq hs.shaped h', same]

omit [NeZero T] in
/-- Every declared array is one of the arrays of the loaded scenarios. -/
theorem C175_names {cfg : EnvConfig} {sample : StateNd α} (hsample : sample.Loaded pre n T) {declared : List (String × List Nat)}
    (h : observationSpec cfg sample = .ok declared) : declared.map Prod.fst = sample.leafShapes.map Prod.fst := by
  rw [spec_eq hsample.shaped h, clockless]
  simp [List.map_map, Function.comp_def]

end

/-- A batch in which every array has the documented shape: two traffic lights, no paths, five roadgraph points. -/
def plainBatch (pre : List Nat) (n T : Nat) : StateNd ℝ :=
  let traj : TrajNd ℝ :=
    { x := ⟨pre ++ [n, T], fun _ => 0⟩, y := ⟨pre ++ [n, T], fun _ => 0⟩, z := ⟨pre ++ [n, T], fun _ => 0⟩
      velX := ⟨pre ++ [n, T], fun _ => 0⟩, velY := ⟨pre ++ [n, T], fun _ => 0⟩, yaw := ⟨pre ++ [n, T], fun _ => 0⟩
      valid := ⟨pre ++ [n, T], fun _ => true⟩, timestampMicros := ⟨pre ++ [n, T], fun _ => 0⟩
      length := ⟨pre ++ [n, T], fun _ => 1⟩, width := ⟨pre ++ [n, T], fun _ => 1⟩, height := ⟨pre ++ [n, T], fun _ => 1⟩ }
  { simTrajectory := traj, logTrajectory := traj
    logTrafficLight := ⟨pre ++ [2, T], fun _ => { x := 0, y := 0, z := 0, state := 0, laneId := 0, valid := false }⟩
    objectMetadata :=
      { ids := ⟨pre ++ [n], fun _ => 0⟩, objectTypes := ⟨pre ++ [n], fun _ => 1⟩, isSdc := ⟨pre ++ [n], fun _ => true⟩
        isModeled := ⟨pre ++ [n], fun _ => true⟩, isValid := ⟨pre ++ [n], fun _ => true⟩
        objectsOfInterest := ⟨pre ++ [n], fun _ => false⟩, isControlled := ⟨pre ++ [n], fun _ => true⟩ }
    timestep := ⟨pre, fun _ => 0⟩, sdcPaths := none
    roadgraphPoints := some ⟨pre ++ [5], fun _ =>
      { x := 0, y := 0, z := 0, dirX := 0, dirY := 0, dirZ := 0, type := 0, id := 0, valid := false }⟩ }

theorem plainBatch_loaded (pre : List Nat) (n T : Nat) : (plainBatch pre n T).Loaded pre n T := by
  refine ⟨⟨⟨rfl, rfl, rfl, rfl, rfl, rfl, rfl, rfl, rfl, rfl, rfl⟩, ⟨rfl, rfl, rfl, rfl, rfl, rfl, rfl, rfl, rfl, rfl, rfl⟩,
    ⟨rfl, rfl, rfl, rfl, rfl, rfl, rfl⟩⟩, fun leaf h => ?_⟩
  simp only [plainBatch, StateNd.leafShapes, TrajNd.leafShapes, MetaNd.leafShapes, List.append_assoc, List.mem_append, List.mem_cons,
    List.not_mem_nil, or_false] at h
  rcases h with h | h | h | h | h | h | h
  all_goals first
    | (rcases h with h | h | h | h | h | h | h | h | h | h | h <;> subst h <;> exact List.prefix_append _ _)
    | (rcases h with h | h | h | h | h | h | h <;> subst h <;> exact List.prefix_append _ _)
    | (subst h; first | exact List.prefix_append _ _ | exact List.prefix_refl _)

/-- The configuration of the examples. -/
def plainCfg (n : Nat) : EnvConfig :=
  { maxNumObjects := n, initSteps := 1, controlledObject := .SDC, allowNewObjectsAfterWarmup := true }

/-- Resetting these batches succeeds, and so does declaring their observations. -/
theorem plainBatch_runs {pre p : List Nat} (hp : InRange pre p) (n T : Nat) [NeZero T] :
    ∃ s', resetNd (plainCfg n) (plainBatch pre n T) = .ok s' := by
  have hb := C105_reset (plainCfg n) (plainBatch_loaded pre n T).shaped
  rcases h : resetNd (plainCfg n) (plainBatch pre n T) with e | s'
  · rw [h] at hb
    have hT : 1 ≤ T := Nat.one_le_iff_ne_zero.2 (NeZero.ne T)
    have := hb p hp
    beta_reduce at this
    rw [reset_eq, if_pos (show (plainCfg n).maxNumObjects = n from rfl), if_pos (show (plainCfg n).initSteps ≤ T from hT)] at this
    cases this
  · exact ⟨s', rfl⟩

/-- Full expectation: whatever the batch axes, the observations of an episode are as declared. -/
def ObservationsConform : Prop :=
  ∀ (pre : List Nat) (n T : Nat) [NeZero T] (D : Type) (dn : DynNd ℝ) (dim : Nat) (row : (Nat → ℝ) → D) (d : DynamicsModel ℝ D n)
    (cfg : EnvConfig) (sample s s' : StateNd ℝ) (declared : List (String × List Nat)) (as : List (ActNd ℝ)),
    dn.Refines n dim row d → sample.Loaded pre n T → s.Loaded pre n T → s.leafShapes = sample.leafShapes →
    observationSpec cfg sample = .ok declared → (∀ a ∈ as, a.Shaped pre n dim) →
    (resetNd cfg s >>= fun r => stepManyNd dn cfg r as) = .ok s' → Conforms pre declared (observeNd s').leafShapes

/-- For a batch of two scenarios the clock of the first observation has no batch axis, although the declaration is read as "without
batch axes". -/
theorem C175_violated : ¬ ObservationsConform := by
  intro h
  obtain ⟨s', hs⟩ := plainBatch_runs (pre := [2]) (p := [0]) (by simp [InRange]) 1 3
  obtain ⟨declared, hd⟩ : ∃ declared, observationSpec (plainCfg 1) (plainBatch [2] 1 3) = .ok declared := by
    unfold observationSpec
    rw [hs]
    exact ⟨_, rfl⟩
  have hr : (resetNd (plainCfg 1) (plainBatch [2] 1 3) >>= fun r => stepManyNd (stateNd ℝ) (plainCfg 1) r []) = .ok s' := by
    rw [hs]
    rfl
  have hl := plainBatch_loaded [2] 1 3
  have := (C175_exact (C105_state 1) hl hl rfl hd (as := []) (by simp) hr).1
    (h [2] 1 3 _ (stateNd ℝ) 5 stateRowOf stateDynamics (plainCfg 1) _ _ s' declared [] (C105_state 1) hl hl rfl hd (by simp) hr)
  cases this

/-- The hypotheses of the theorems above are met without batch axes and with the batch axes `[2, 3]`. -/
example : ∃ s' declared, resetNd (plainCfg 4) (plainBatch [] 4 7) = .ok s' ∧
    observationSpec (plainCfg 4) (plainBatch [] 4 7) = .ok declared ∧ Conforms [] declared (observeNd s').leafShapes := by
  obtain ⟨s', hs⟩ := plainBatch_runs (pre := []) (p := []) (by simp [InRange]) 4 7
  obtain ⟨declared, hd⟩ : ∃ declared, observationSpec (plainCfg 4) (plainBatch [] 4 7) = .ok declared := by
    unfold observationSpec
    rw [hs]
    exact ⟨_, rfl⟩
  have hl := plainBatch_loaded [] 4 7
  exact ⟨s', declared, hs, hd, (C175_exact (C105_state 4) hl hl rfl hd (as := []) (by simp) (by rw [hs]; rfl)).2 rfl⟩

example : ∃ s' declared, resetNd (plainCfg 4) (plainBatch [2, 3] 4 7) = .ok s' ∧
    observationSpec (plainCfg 4) (plainBatch [2, 3] 4 7) = .ok declared ∧
    Conforms [2, 3] (withoutClock declared) (withoutClock (observeNd s').leafShapes) := by
  obtain ⟨s', hs⟩ := plainBatch_runs (pre := [2, 3]) (p := [1, 2]) (by simp [InRange]) 4 7
  obtain ⟨declared, hd⟩ : ∃ declared, observationSpec (plainCfg 4) (plainBatch [2, 3] 4 7) = .ok declared := by
    unfold observationSpec
    rw [hs]
    exact ⟨_, rfl⟩
  have hl := plainBatch_loaded [2, 3] 4 7
  exact ⟨s', declared, hs, hd, C175_batched_partial (C105_state 4) hl hl rfl hd (as := []) (by simp) (by rw [hs]; rfl)⟩

end
end Waymax
