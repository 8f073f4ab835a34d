import Verif.Spec.Validate
import Verif.Props.BatchTime
/-
C115: what `validate` accepts, and whether accepted scenarios can be simulated.
-/

namespace Waymax

section
variable {α : Type} {pre : List Nat} {n m T : Nat}

theorem assertThat_iff {p : Prop} [Decidable p] {e : Err} : assertThat p e = .ok () ↔ p := by
  unfold assertThat
  split <;> simp_all

theorem C115_trajectory (t : TrajNd α) : t.validate = .ok () ↔ ∃ sh, t.HasShape sh := by
  unfold TrajNd.validate
  rw [assertThat_iff]
  constructor
  · rintro ⟨h1, h2, h3, h4, h5, h6, h7, h8, h9, h10⟩
    exact ⟨t.x.shape, rfl, h1, h2, h3, h4, h5, h6, h7, h8, h9, h10⟩
  · rintro ⟨sh, h⟩
    rw [h.x, h.y, h.z, h.velX, h.velY, h.yaw, h.valid, h.timestampMicros, h.length, h.width, h.height]
    simp

theorem C115_metadata (t : MetaNd) : t.validate = .ok () ↔ ∃ sh, t.HasShape sh := by
  unfold MetaNd.validate
  rw [assertThat_iff]
  constructor
  · rintro ⟨h1, h2, h3, h4, h5, h6⟩
    exact ⟨t.ids.shape, rfl, h1, h2, h3, h4, h5, h6⟩
  · rintro ⟨sh, h⟩
    rw [h.ids, h.objectTypes, h.isSdc, h.isModeled, h.isValid, h.objectsOfInterest, h.isControlled]
    simp

theorem do_unit_ok {a b : Except Err Unit} : (do a; b) = .ok () ↔ a = .ok () ∧ b = .ok () := by
  cases a with
  | error e => exact ⟨fun h => (by cases h), fun h => (by cases h.1)⟩
  | ok u => cases u; exact ⟨fun h => ⟨rfl, h⟩, fun h => h.2⟩

/-- `SimulatorState.validate` compares the leading axes. -/
theorem validate_iff {S : StateNd α} (hm : S.objectMetadata.HasShape (pre ++ [m])) :
    S.validate = .ok () ↔ pre <+: S.simTrajectory.shape ∧ pre <+: S.logTrajectory.shape ∧
      pre <+: S.logTrafficLight.shape ∧ pre <+: S.timestep.shape ∧ ∀ rg ∈ S.roadgraphPoints, pre <+: rg.shape := by
  have hsh : S.shape = pre := by unfold StateNd.shape; rw [hm.ids]; simp
  have hpre : ∀ l : List Nat, l.take pre.length = pre ↔ pre <+: l := fun l =>
    ⟨fun h => h ▸ List.take_prefix _ _, fun h => (List.prefix_iff_eq_take.1 h).symm⟩
  unfold StateNd.validate
  rw [assertThat_iff, hsh, hm.ids]
  constructor
  · intro h
    have h0 : pre = S.simTrajectory.shape.take pre.length := by
      have := h (pre ++ [m]) (by simp)
      simpa using this
    have h' : ∀ sh ∈ [S.simTrajectory.shape, S.logTrajectory.shape, S.logTrafficLight.shape, pre ++ [m], S.timestep.shape] ++
        S.roadgraphPoints.toList.map Nd.shape, pre <+: sh := fun sh hin => (hpre sh).1 ((h sh hin).trans h0.symm)
    refine ⟨h' _ (by simp), h' _ (by simp), h' _ (by simp), h' _ (by simp), fun rg hrg => h' _ ?_⟩
    rw [Option.mem_def] at hrg
    simp [hrg]
  · rintro ⟨h1, h2, h3, h4, h5⟩ sh hin
    rw [(hpre _).2 h1, hpre]
    simp only [List.cons_append, List.nil_append, List.mem_cons, List.mem_map, Option.mem_toList] at hin
    rcases hin with rfl | rfl | rfl | rfl | rfl | ⟨rg, hrg, rfl⟩
    · exact h1
    · exact h2
    · exact h3
    · exact List.prefix_append _ _
    · exact h4
    · exact h5 rg hrg

/-- A scenario with metadata for `m` objects in batches of shape `pre` passes every check exactly when the leaves of each trajectory
have one shape, and trajectories, lights, clock and road map, if any, begin with the axes `pre`. Nothing else is compared: not the
number of objects, not the number of steps, not the paths. -/
theorem C115_accepts_iff {S : StateNd α} (hm : S.objectMetadata.HasShape (pre ++ [m])) :
    S.validateAll = .ok () ↔
      (∃ sh, S.simTrajectory.HasShape sh ∧ pre <+: sh) ∧ (∃ sh, S.logTrajectory.HasShape sh ∧ pre <+: sh) ∧
      pre <+: S.logTrafficLight.shape ∧ pre <+: S.timestep.shape ∧ ∀ rg ∈ S.roadgraphPoints, pre <+: rg.shape := by
  have hmv : S.objectMetadata.validate = .ok () := (C115_metadata _).2 ⟨_, hm⟩
  have hstate := validate_iff hm
  unfold StateNd.validateAll
  rw [do_unit_ok, do_unit_ok, do_unit_ok, C115_trajectory, C115_trajectory, hstate]
  constructor
  · rintro ⟨⟨s1, h1⟩, ⟨s2, h2⟩, -, h3, h4, h5⟩
    exact ⟨⟨s1, h1, h1.x ▸ h3⟩, ⟨s2, h2, h2.x ▸ h4⟩, h5⟩
  · rintro ⟨⟨s1, h1, h3⟩, ⟨s2, h2, h4⟩, h5⟩
    refine ⟨⟨s1, h1⟩, ⟨s2, h2⟩, hmv, ?_, ?_, h5⟩
    · unfold TrajNd.shape; rw [h1.x]; exact h3
    · unfold TrajNd.shape; rw [h2.x]; exact h4

/-! ### Accepted scenarios and simulation -/

/-- If metadata and trajectories are for different numbers of objects and the controlled objects are read from the metadata, every
step fails. -/
theorem C115_step_rejected [ScalarOps α] (dn : DynNd α) (cfg : EnvConfig) {S : StateNd α} (hs : S.simTrajectory.HasShape (pre ++ [n, T]))
    (hm : S.objectMetadata.HasShape (pre ++ [m])) (hmn : m ≠ n)
    (hc : ¬ (cfg.controlledObject = .VALID ∧ cfg.allowNewObjectsAfterWarmup = false)) (hns : cfg.controlledObject ≠ .NON_SDC) (a : ActNd α) :
    stepNd dn cfg S a = .error .assertion := by
  obtain ⟨mask, e, hmask⟩ : ∃ mask, envControlMaskNd cfg S = .ok mask ∧ mask.shape = pre ++ [m] := by
    unfold envControlMaskNd
    rw [if_neg hc]
    cases h : cfg.controlledObject with
    | SDC => exact ⟨_, rfl, hm.isSdc⟩
    | MODELED => exact ⟨_, rfl, hm.isModeled⟩
    | VALID => exact ⟨_, rfl, hm.isValid⟩
    | NON_SDC => exact absurd h hns
  unfold stepNd
  rw [e, exc_ok_bind]
  have : dn.forward a S.simTrajectory S.logTrajectory mask S.timestep cfg.allowNewObjectsAfterWarmup = .error .assertion := by
    unfold DynNd.forward
    by_cases h1 : S.simTrajectory.shape.dropLast = a.shape
    · rw [assertThat_ok h1, exc_ok_bind]
      dsimp only
      rw [assertThat_error]
      · rfl
      · rintro ⟨-, h2, -⟩
        unfold TrajNd.shape at h2
        rw [hmask, hs.x] at h2
        have : (pre ++ [n, T]).take (pre ++ [m]).length = pre ++ [n] := by
          simp [List.take_append]
        rw [this] at h2
        simp at h2
        exact hmn h2
    · rw [assertThat_error h1]
      rfl
  rw [this]
  rfl

/-- C115, full expectation: a scenario that passes every check and that `reset` accepts can be stepped with actions of the shape of its
trajectories. -/
def C115_full : Prop :=
  ∀ (pre : List Nat) (n T : Nat) (cfg : EnvConfig) (S s0 : StateNd ℝ) (a : ActNd ℝ), S.validateAll = .ok () → resetNd cfg S = .ok s0 →
    s0.simTrajectory.HasShape (pre ++ [n, T]) → cfg.controlledObject ≠ .NON_SDC → a.Shaped pre n 5 → ∃ s1, stepNd (stateNd ℝ) cfg s0 a = .ok s1

/-- Two scenarios of one object whose metadata is for three objects. -/
noncomputable def exThreeMeta : StateNd ℝ :=
  { exTwo with objectMetadata :=
    { ids := { shape := [2, 3], get := fun _ => 7 }, objectTypes := { shape := [2, 3], get := fun _ => 1 }
      isSdc := { shape := [2, 3], get := fun idx => idx.getD 1 0 == 0 }, isModeled := { shape := [2, 3], get := fun _ => true }
      isValid := { shape := [2, 3], get := fun _ => true }, objectsOfInterest := { shape := [2, 3], get := fun _ => false }
      isControlled := { shape := [2, 3], get := fun _ => true } } }

theorem exThreeMeta_meta : exThreeMeta.objectMetadata.HasShape ([2] ++ [3]) := ⟨rfl, rfl, rfl, rfl, rfl, rfl, rfl⟩

theorem exThreeMeta_valid : exThreeMeta.validateAll = .ok () :=
  (C115_accepts_iff exThreeMeta_meta).2 ⟨⟨_, exTwo_shaped.sim, [1, 3], rfl⟩, ⟨_, exTwo_shaped.log, [1, 3], rfl⟩, ⟨[0, 3], rfl⟩, ⟨[], rfl⟩,
    fun _ h => by cases h⟩

/-- Metadata for another number of objects is accepted, and no step is possible. -/
theorem C115_violated : ¬ C115_full := by
  intro h
  obtain ⟨s0, hr, h1, h2⟩ : ∃ s0, resetNd { maxNumObjects := 1, initSteps := 1, controlledObject := .SDC } exThreeMeta = .ok s0 ∧
      s0.simTrajectory.HasShape ([2] ++ [1, 3]) ∧ s0.objectMetadata = exThreeMeta.objectMetadata := by
    unfold resetNd
    have hn : exThreeMeta.logTrajectory.numObjects = .ok 1 := rfl
    rw [hn, exc_ok_bind, assertThat_ok rfl, exc_ok_bind]
    unfold updateStateByLogNd
    dsimp only
    rcases updSlice_batch (pre := [2]) (n := 1) (T := 3) (t := exThreeMeta.logTrajectory.fillInvalid) (u := exThreeMeta.logTrajectory)
      (start := (Nd.scalar (-1 : Int)).map fun t => t + 1) (fillInvalid_shape exTwo_shaped.log) exTwo_shaped.log rfl 1 with
      ⟨t', e, s, g⟩ | ⟨e, g⟩
    · rw [e, exc_ok_bind]
      exact ⟨_, rfl, s, rfl⟩
    · have := g [0] (.cons (by omega) .nil)
      simp [updateTrajBySlice] at this
  obtain ⟨s1, e⟩ := h [2] 1 3 _ exThreeMeta s0 exTwoAct exThreeMeta_valid hr h1 (by simp) ⟨rfl, rfl⟩
  rw [C115_step_rejected (pre := [2]) (n := 1) (m := 3) (T := 3) _ _ h1 (h2 ▸ exThreeMeta_meta) (by decide) (by simp) (by simp)] at e
  cases e

theorem stepMany_total [ScalarOps α] [NeZero T] {D : Type} (d : DynamicsModel α D n) (cfg : EnvConfig) (hns : cfg.controlledObject ≠ .NON_SDC)
    (as : List (Fin n → Act D)) (s : SimState α n T) : ∃ s', stepMany d cfg s as = .ok s' := by
  induction as generalizing s with
  | nil => exact ⟨s, rfl⟩
  | cons a as ih =>
    obtain ⟨mask, hm⟩ : ∃ mask, envControlMask cfg s = .ok mask := by
      unfold envControlMask
      split
      · exact ⟨_, rfl⟩
      · cases h : cfg.controlledObject with
        | SDC => exact ⟨_, rfl⟩
        | MODELED => exact ⟨_, rfl⟩
        | VALID => exact ⟨_, rfl⟩
        | NON_SDC => exact absurd h hns
    unfold stepMany step
    simp only [hm, bind, Except.bind, pure, Except.pure]
    exact ih _

/-- What holds: if moreover metadata and logged trajectories are for the same objects, any number of steps succeeds. The simulated
trajectory of the given scenario does not matter. -/
theorem C115_partial [ScalarOps α] [NeZero T] {D : Type} {dn : DynNd α} {dim : Nat} {row : (Nat → α) → D} {d : DynamicsModel α D n}
    (hd : dn.Refines n dim row d) (cfg : EnvConfig) (hns : cfg.controlledObject ≠ .NON_SDC) {S s0 : StateNd α}
    (hl : S.logTrajectory.HasShape (pre ++ [n, T])) (hm : S.objectMetadata.HasShape (pre ++ [n])) (hb : ∃ p, InRange pre p)
    (hr : resetNd cfg S = .ok s0) (as : List (ActNd α)) (ha : ∀ a ∈ as, a.Shaped pre n dim) :
    ∃ s1, stepManyNd dn cfg s0 as = .ok s1 ∧ s1.Shaped pre n T := by
  have e : resetNd cfg S = resetNd cfg { S with simTrajectory := S.logTrajectory } := rfl
  have h1 := C105_reset cfg (S := { S with simTrajectory := S.logTrajectory }) ⟨hl, hl, hm⟩
  rw [← e, hr] at h1
  obtain ⟨h2, h3, -⟩ := h1
  have h4 := C105_steps hd cfg as ha h2 h3
  obtain ⟨p, hp⟩ := hb
  cases hres : stepManyNd dn cfg s0 as with
  | ok s1 => rw [hres] at h4; exact ⟨s1, rfl, h4.1⟩
  | error er =>
    rw [hres] at h4
    have h5 := h4 p hp
    obtain ⟨s', h6⟩ := stepMany_total d cfg hns (as.map fun a => a.scenario row n p) (s0.scenario n T p)
    exact absurd (h6.symm.trans h5) (by simp)

/-- `Trajectory.zeros` passes the check, has the given shape, and no object is present in it at any time. -/
theorem C115_zeros (zero : α) (sh : List Nat) :
    (TrajNd.zeros zero sh).validate = .ok () ∧ (TrajNd.zeros zero sh).HasShape sh ∧ ∀ idx, ((TrajNd.zeros zero sh).at_ idx).valid = false :=
  ⟨(C115_trajectory _).2 ⟨sh, rfl, rfl, rfl, rfl, rfl, rfl, rfl, rfl, rfl, rfl, rfl⟩, ⟨rfl, rfl, rfl, rfl, rfl, rfl, rfl, rfl, rfl, rfl, rfl⟩,
    fun _ => rfl⟩

/-! ### Data types -/

/-- Trajectories, metadata, map points, lights and updates are accepted exactly when their leaves have one common shape and the
declared data types, in order. -/
theorem C115_flat (c : FlatCls) (leaves : List ArrSpec) :
    c.validate leaves = .ok () ↔ ∃ sh, leaves = (declared c).map fun f => { shape := sh, dtype := f.2 } := by
  have ht : (declared c).map (fun f => f.2) = c.types := by cases c <;> rfl
  have ht' : ∀ sh, (declared c).map (fun f => ({ shape := sh, dtype := f.2 } : ArrSpec)) = c.types.map fun d => { shape := sh, dtype := d } := by
    intro sh; rw [← ht, List.map_map]; rfl
  simp only [ht']
  unfold FlatCls.validate assertEqualShape assertType
  rw [do_unit_ok, assertThat_iff, assertThat_iff]
  constructor
  · rintro ⟨h1, h2⟩
    cases leaves with
    | nil => cases c <;> simp [FlatCls.types] at h2
    | cons a l =>
      refine ⟨a.shape, ?_⟩
      rw [← h2, List.map_map]
      refine (List.map_id _).symm.trans (List.map_congr_left fun b hb => ?_)
      have := h1 b hb a (by simp)
      simp only [id, Function.comp]
      rw [← this]
  · rintro ⟨sh, rfl⟩
    refine ⟨?_, by rw [List.map_map]; exact List.map_id _⟩
    intro a ha b hb
    rw [List.mem_map] at ha hb
    obtain ⟨_, -, rfl⟩ := ha
    obtain ⟨_, -, rfl⟩ := hb
    rfl

/-- Paths are accepted exactly when the points have one shape `(..., paths, points)`, the route flags the same with one entry for each
path, and the data types are as declared. Paths of no points must have flags without entries. -/
theorem C115_paths (x y z ids valid arcLength onRoute : ArrSpec) :
    pathsValidate x y z ids valid arcLength onRoute = .ok () ↔
      ∃ (sh : List Nat) (points : Nat), x = ⟨sh ++ [points], .float32⟩ ∧ y = ⟨sh ++ [points], .float32⟩ ∧ z = ⟨sh ++ [points], .float32⟩ ∧
        ids = ⟨sh ++ [points], .int32⟩ ∧ valid = ⟨sh ++ [points], .bool⟩ ∧ arcLength = ⟨sh ++ [points], .float32⟩ ∧
        onRoute = ⟨sh ++ [if points = 0 then 0 else 1], .bool⟩ := by
  unfold pathsValidate assertEqualShape assertType
  rw [do_unit_ok, do_unit_ok, do_unit_ok, assertThat_iff, assertThat_iff, assertThat_iff, assertThat_iff]
  constructor
  · rintro ⟨h0, h1, h2, h3⟩
    obtain ⟨sh, points, hx⟩ : ∃ sh points, x.shape = sh ++ [points] := ⟨_, _, (List.dropLast_append_getLast h0).symm⟩
    obtain ⟨xs, xd⟩ := x
    obtain ⟨ys, yd⟩ := y
    obtain ⟨zs, zd⟩ := z
    obtain ⟨is, idt⟩ := ids
    obtain ⟨vs, vd⟩ := valid
    obtain ⟨as, ad⟩ := arcLength
    obtain ⟨os, od⟩ := onRoute
    simp only at hx
    subst hx
    have hy := h2 ⟨ys, yd⟩ (by simp) ⟨sh ++ [points], xd⟩ (by simp)
    have hz := h2 ⟨zs, zd⟩ (by simp) ⟨sh ++ [points], xd⟩ (by simp)
    have hi := h2 ⟨is, idt⟩ (by simp) ⟨sh ++ [points], xd⟩ (by simp)
    have hv := h2 ⟨vs, vd⟩ (by simp) ⟨sh ++ [points], xd⟩ (by simp)
    have ha := h2 ⟨as, ad⟩ (by simp) ⟨sh ++ [points], xd⟩ (by simp)
    simp only at hy hz hi hv ha
    simp only [List.map_cons, List.map_nil, List.cons.injEq, and_true] at h3
    obtain ⟨rfl, rfl, rfl, rfl, rfl, rfl, rfl⟩ := h3
    subst hy hz hi hv ha
    refine ⟨sh, points, rfl, rfl, rfl, rfl, rfl, rfl, ?_⟩
    simp only [List.dropLast_concat, List.getLastD_concat] at h1
    rw [← h1]
    rcases points with _ | k <;> simp
  · rintro ⟨sh, points, rfl, rfl, rfl, rfl, rfl, rfl, rfl⟩
    refine ⟨by simp, ?_, ?_, rfl⟩
    · simp only [List.dropLast_concat, List.getLastD_concat]
      rcases points with _ | k <;> simp
    · intro a ha b hb
      simp only [List.mem_cons, List.not_mem_nil, or_false] at ha hb
      rcases ha with rfl | rfl | rfl | rfl | rfl | rfl <;> rcases hb with rfl | rfl | rfl | rfl | rfl | rfl <;> rfl

/-- A pose is accepted exactly when the data types are as declared and every array begins with the axes of the rotation angle; the
shapes after them are not looked at. -/
theorem C115_pose (xy yaw matrix deltaYaw valid : ArrSpec) :
    poseValidate xy yaw matrix deltaYaw valid = .ok () ↔
      (∀ a ∈ [xy, yaw, matrix, valid], deltaYaw.shape <+: a.shape) ∧
      xy.dtype = .float32 ∧ yaw.dtype = .float32 ∧ matrix.dtype = .float32 ∧ deltaYaw.dtype = .float32 ∧ valid.dtype = .bool := by
  have hpre : ∀ l : List Nat, deltaYaw.shape = l.take deltaYaw.shape.length ↔ deltaYaw.shape <+: l := fun l =>
    ⟨fun h => h ▸ List.take_prefix _ _, fun h => List.prefix_iff_eq_take.1 h⟩
  unfold poseValidate assertType
  dsimp only
  rw [do_unit_ok, assertThat_iff, assertThat_iff]
  simp only [List.mem_cons, List.not_mem_nil, or_false, forall_eq_or_imp, forall_eq, List.take_length, true_and, List.map_cons,
    List.map_nil, List.cons.injEq, and_true, ← hpre]
  constructor
  · rintro ⟨⟨h1, h2, h3, h4⟩, h5⟩
    exact ⟨⟨h3, h3.trans h1.symm, h3.trans h2.symm, h3.trans h4.symm⟩, h5⟩
  · rintro ⟨⟨h1, h2, h3, h4⟩, h5⟩
    exact ⟨⟨h2.symm.trans h1, h3.symm.trans h1, h1, h4.symm.trans h1⟩, h5⟩

example : poseValidate ⟨[3, 2], .float32⟩ ⟨[3], .float32⟩ ⟨[3, 2, 2], .float32⟩ ⟨[3], .float32⟩ ⟨[3], .bool⟩ = .ok () :=
  (C115_pose _ _ _ _ _).2 ⟨by simp, rfl, rfl, rfl, rfl, rfl⟩

/-- A scenario that meets the hypotheses of `C115_partial`, and a step of it. -/
example : ∃ s0 s1, resetNd { maxNumObjects := 1, initSteps := 1, controlledObject := .SDC } exTwo = .ok s0 ∧
    stepManyNd (stateNd ℝ) { maxNumObjects := 1, initSteps := 1, controlledObject := .SDC } s0 [exTwoAct] = .ok s1 := by
  have h := C105_reset { maxNumObjects := 1, initSteps := 1, controlledObject := .SDC } exTwo_shaped
  cases hr : resetNd { maxNumObjects := 1, initSteps := 1, controlledObject := .SDC } exTwo with
  | error e =>
    rw [hr] at h
    have := h [0] (.cons (by omega) .nil)
    simp [reset, updateStateByLog, updateTrajBySlice] at this
  | ok s0 =>
    obtain ⟨s1, h1, -⟩ := C115_partial (pre := [2]) (T := 3) (C105_state 1) _ (by simp) exTwo_shaped.log exTwo_shaped.metadata
      ⟨[0], .cons (by omega) .nil⟩ hr [exTwoAct] (by simp; exact ⟨rfl, rfl⟩)
    exact ⟨s0, s1, rfl, h1⟩

example : FlatCls.trafficLights.validate [⟨[4, 10], .float32⟩, ⟨[4, 10], .float32⟩, ⟨[4, 10], .float32⟩, ⟨[4, 10], .int32⟩, ⟨[4, 10], .int32⟩,
    ⟨[4, 10], .bool⟩] = .ok () := (C115_flat _ _).2 ⟨[4, 10], rfl⟩

end

end Waymax
