import Verif.Spec.Influence
import Verif.Props.Padding
import Verif.Props.Episode
import Verif.Examples
import Verif.Model.Discretizer
/-
C151: an action moves only the object it is for.
-/

namespace Waymax

section
variable {α D : Type} {n T : Nat} {i : Fin n} {s s' : SimState α n T}

/-- Models given by functions of a single object are of this kind. -/
theorem ofSingle_objectByObject (update : Act D → Pt α → Upd α)
    (inverse : {T : Nat} → [NeZero T] → (Fin T → Pt α) → Int → Act D) :
    ObjectByObject (DynamicsModel.ofSingle (n := n) update inverse) :=
  fun a a' c c' i ha hc => by simp only [DynamicsModel.ofSingle, ha, hc]

/-- The built-in dynamics models are of this kind, and so is the discrete action space over such a model. -/
theorem C151_builtin : ObjectByObject (stateDynamics : DynamicsModel α (StateRow α) n) ∧
    (∀ P : DeltaParams, ObjectByObject (deltaGlobal P : DynamicsModel ℝ Delta3 n)) ∧
    (∀ P : DeltaParams, ObjectByObject (deltaLocal P : DynamicsModel ℝ Delta3 n)) ∧
    (∀ P : BicycleParams, ObjectByObject (bicycle P : DynamicsModel ℝ AccelSteer n)) ∧
    ∀ (d : DynamicsModel ℝ D n) (codec : RowCodec D) (ds : List BinDim), ObjectByObject d → ObjectByObject (discreteWrapper d codec ds) := by
  refine ⟨fun a a' c c' i ha _ => by simp only [stateDynamics, ha], fun P => ofSingle_objectByObject _ _, fun P => ofSingle_objectByObject _ _,
    fun P => ofSingle_objectByObject _ _, fun d codec ds hd a a' c c' i ha hc => ?_⟩
  exact hd _ _ _ _ i (by simp only [ha]) hc

section
variable [ScalarOps α]

/-- `reset`: the states of object `i` depend on nothing but its own log. -/
theorem C151_reset (cfg : EnvConfig) (h : SameObject i s s') : Both (SameObject i) (reset cfg s) (reset cfg s') := by
  rw [reset_eq, reset_eq]
  split
  · split
    · refine .ok ⟨?_, h.log, h.object, rfl⟩
      funext t
      simp only [h.log]
    · exact .error
  · exact .error

variable [NeZero T]

omit [ScalarOps α] in
theorem mask_object {cfg : EnvConfig} (h : SameObject i s s') :
    Both (fun c c' => c' i = c i) (envControlMask cfg s) (envControlMask cfg s') := by
  unfold envControlMask
  split
  · exact .ok (by simp only [h.sim])
  · unfold getControlMask
    cases cfg.controlledObject
    · exact .ok (by simp only [h.object])
    · exact .ok (by simp only [h.object])
    · exact .ok (by simp only [h.object])
    · exact .error

/-- One `step`: where object `i` goes depends on nothing but its own action, state, log and metadata. -/
theorem C151_step {d : DynamicsModel α D n} (hd : ObjectByObject d) (cfg : EnvConfig) (h : SameObject i s s') {a a' : Fin n → Act D}
    (ha : a' i = a i) : Both (SameObject i) (step d cfg s a) (step d cfg s' a') := by
  unfold step
  refine (mask_object h).bind fun c c' hc => .ok ⟨?_, h.log, h.object, by simp only [h.clock]⟩
  funext t
  simp only
  unfold DynamicsModel.forward applyTrajectoryUpdate
  simp only [h.clock, h.sim, h.log, hc]
  rw [hd a a' (fun j => dynIndex (s.simTrajectory j) s.timestep) (fun j => dynIndex (s'.simTrajectory j) s.timestep) i ha (by rw [h.sim])]

/-- Any number of steps. -/
theorem C151_steps {d : DynamicsModel α D n} (hd : ObjectByObject d) (cfg : EnvConfig) {as as' : List (Fin n → Act D)}
    (ha : List.Forall₂ (fun a a' => a' i = a i) as as') (h : SameObject i s s') :
    Both (SameObject i) (stepMany d cfg s as) (stepMany d cfg s' as') := by
  induction ha generalizing s s' with
  | nil => exact .ok h
  | cons ha _ ih => exact (C151_step hd cfg h ha).bind fun _ _ h' => ih h'

/-- Whole episodes: the simulated states of object `i` are a function of its own log, metadata and actions. -/
theorem C151_episode {d : DynamicsModel α D n} (hd : ObjectByObject d) (cfg : EnvConfig) {as as' : List (Fin n → Act D)}
    (ha : List.Forall₂ (fun a a' => a' i = a i) as as') (h : SameObject i s s') :
    Both (SameObject i) (reset cfg s >>= fun s0 => stepMany d cfg s0 as) (reset cfg s' >>= fun s0 => stepMany d cfg s0 as') :=
  (C151_reset cfg h).bind fun _ _ h' => C151_steps hd cfg ha h'

/-- Actions for objects that are not controlled are ignored: replacing them gives the same next state. -/
theorem C151_ignored {d : DynamicsModel α D n} (hd : ObjectByObject d) (cfg : EnvConfig) (s : SimState α n T) {a a' : Fin n → Act D}
    (ha : ∀ c, envControlMask cfg s = .ok c → ∀ i, c i = true → a' i = a i) : step d cfg s a' = step d cfg s a := by
  unfold step
  cases hm : envControlMask cfg s with
  | error e => rfl
  | ok c =>
    have e : d.forward a' s.simTrajectory s.logTrajectory c s.timestep cfg.allowNewObjectsAfterWarmup =
        d.forward a s.simTrajectory s.logTrajectory c s.timestep cfg.allowNewObjectsAfterWarmup := by
      funext i
      unfold DynamicsModel.forward applyTrajectoryUpdate
      simp only
      cases hc : c i
      · simp only [updatedPt, newField, Bool.false_eq_true, if_false]
      · rw [hd a a' _ _ i (ha c hm i hc) rfl]
    change Except.ok _ = Except.ok _
    rw [e]

theorem stepMany_snoc {d : DynamicsModel α D n} {cfg : EnvConfig} {as : List (Fin n → Act D)} {a : Fin n → Act D} {s s1 s2 : SimState α n T}
    (h1 : stepMany d cfg s as = .ok s1) (h2 : step d cfg s1 a = .ok s2) : stepMany d cfg s (as ++ [a]) = .ok s2 := by
  induction as generalizing s with
  | nil =>
    have : s = s1 := by simpa [stepMany] using h1
    subst this
    simp only [List.nil_append, stepMany, h2]
    rfl
  | cons b bs ih =>
    obtain ⟨s3, h3, h4⟩ := stepMany_cons_ok h1
    simp only [List.cons_append, stepMany, h3]
    exact ih h4

/-- The same for a whole episode: only the actions of the objects controlled at its start have an influence. -/
theorem C151_ignored_episode {d : DynamicsModel α D n} (hd : ObjectByObject d) {cfg : EnvConfig} {scen s0 s1 : SimState α n T}
    {as as' : List (Fin n → Act D)} (E : Episode d cfg scen s0 as s1)
    (ha : List.Forall₂ (fun a a' => ∀ i, IsControlled cfg s0 i → a' i = a i) as as') : stepMany d cfg s0 as' = .ok s1 := by
  have key : ∀ (rest rest' : List (Fin n → Act D)),
      List.Forall₂ (fun a a' => ∀ i, IsControlled cfg s0 i → a' i = a i) rest rest' →
      ∀ (done : List (Fin n → Act D)) (sm : SimState α n T), Episode d cfg scen s0 done sm → cfg.initSteps + (done.length + rest.length) ≤ T →
      stepMany d cfg sm rest = .ok s1 → stepMany d cfg sm rest' = .ok s1 := by
    intro rest rest' h
    induction h with
    | nil => exact fun _ _ _ _ h => h
    | @cons a a' as as' ha _ ih =>
      intro done sm Em hT hrun
      obtain ⟨s2, h1, h2⟩ := stepMany_cons_ok hrun
      have hst : step d cfg sm a' = .ok s2 := by
        rw [C151_ignored hd cfg sm fun c hc i hci => ha i ((C10_control_mask_constant Em hc i).1 hci), h1]
      have hlen : (a :: as).length = as.length + 1 := rfl
      have Es : Episode d cfg scen s0 (done ++ [a]) s2 := by
        refine ⟨Em.start, ?_, Em.warm, by rw [List.length_append]; simp only [List.length_singleton]; omega⟩
        exact stepMany_snoc Em.run h1
      unfold stepMany
      rw [hst]
      exact ih (done ++ [a]) s2 Es (by rw [List.length_append]; simp only [List.length_singleton]; omega) h2
  exact key as as' ha [] s0 ⟨E.start, rfl, E.warm, by have := E.fits; simp only [List.length_nil]; omega⟩
    (by have := E.fits; simp only [List.length_nil]; omega) E.run

end

end

/-- The metrics about single objects see only their object: log divergence, kinematic infeasibility, and, on the same road map,
off-road. -/
theorem C151_metrics {n T : Nat} [NeZero T] {i : Fin n} {s s' : SimState ℝ n T} (h : SameObject i s s') :
    logDivergenceMetric s' i = logDivergenceMetric s i ∧
    (∀ K, kinematicsInfeasibilityMetric K s' i = kinematicsInfeasibilityMetric K s i) ∧
    (s'.roadgraphPoints = s.roadgraphPoints → Both (fun r r' => r' i = r i) (offroadMetric s) (offroadMetric s')) := by
  refine ⟨by simp only [logDivergenceMetric, h.sim, h.log, h.clock], fun K => by simp only [kinematicsInfeasibilityMetric, h.sim, h.clock],
    fun hr => ?_⟩
  unfold offroadMetric
  rw [hr]
  cases s.roadgraphPoints with
  | none => exact .error
  | some rg =>
    cases rg with
    | nil => exact .error
    | cons p rg =>
      have hp : dynIndex (s'.simTrajectory i) s'.timestep = dynIndex (s.simTrajectory i) s.timestep := by rw [h.sim, h.clock]
      exact .ok (by beta_reduce; rw [hp])

/-- The scenario of the examples with another recording of object 1 and another object 1. -/
def exOther : SimState Int 2 4 :=
  { exScen with
    logTrajectory := fun i t => if i.val = 0 then exLog i t else exPt 99 true
    objectMetadata := fun i => if i.val = 0 then exMeta i else { exMeta i with objectType := 2, isModeled := false } }

/-- The hypotheses hold for object 0 of these scenarios, with other actions for object 1. -/
example : SameObject 0 exScen exOther ∧ ¬ SameObject 1 exScen exOther ∧
    List.Forall₂ (fun a a' : Fin 2 → Act (StateRow Int) => a' 0 = a 0) [exAct true, exAct false]
      [fun i => if i.val = 0 then exAct true i else exAct false i, exAct false] :=
  ⟨⟨rfl, rfl, rfl, rfl⟩, fun h => by have := congrArg (fun l => (l 0).x) h.log; revert this; decide, .cons rfl (.cons rfl .nil)⟩

/-- And the other actions do reach object 1 when it is controlled: actions are not ignored altogether. -/
example : ∃ s1 s2, step stateDynamics { exCfg with controlledObject := .MODELED } { exScen with timestep := 0 } (exAct true) = .ok s1 ∧
    step stateDynamics { exCfg with controlledObject := .MODELED } { exScen with timestep := 0 }
      (fun i => if i.val = 0 then exAct true i else { exAct true i with data := { (exAct true i).data with x := 7 } }) = .ok s2 ∧
    (s1.simTrajectory 0 1).x = (s2.simTrajectory 0 1).x ∧ (s1.simTrajectory 1 1).x = 101 ∧ (s2.simTrajectory 1 1).x = 7 :=
  ⟨_, _, rfl, rfl, by decide, by decide, by decide⟩

end Waymax
