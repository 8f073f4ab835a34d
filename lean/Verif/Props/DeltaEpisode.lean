import Verif.Props.Delta
import Verif.Lemmas.Episode
import Verif.Examples
import Mathlib.Algebra.BigOperators.Fin
/-
C88: delta dynamics over whole episodes.

An object's path is the running sum of the commanded displacements, and its velocity is the displacement of the last step divided by
the time step.
-/

namespace Waymax

open Real

section
variable {n T : Nat} [NeZero T]

theorem Episode.controlled_point {D : Type} {d : DynamicsModel ℝ D n} {cfg : EnvConfig} {scen s0 s1 : SimState ℝ n T}
    {acts : List (Fin n → Act D)} (E : Episode d cfg scen s0 acts s1) {k : Nat} (hk : k < acts.length) {t t' : Fin T}
    (ht : t.val + 1 = cfg.initSteps + k) (ht' : t'.val = cfg.initSteps + k) {i : Fin n} (hc : IsControlled cfg s0 i) :
    let u := d.computeUpdate acts[k] (fun j => s1.simTrajectory j t) i
    let p := s1.simTrajectory i t'
    p.x = u.x ∧ p.y = u.y ∧ p.yaw = u.yaw ∧ p.velX = u.velX ∧ p.velY = u.velY := by
  obtain ⟨c, hcc, h⟩ := E.recurrence hk ht ht' i
  rw [hcc.2 hc] at h
  simp only [h, updatedPt, newField, if_true, Bool.false_eq_true, if_false, and_self]

/-- DeltaGlobal: each step moves the object by the commanded displacement and turns it by the commanded angle, and its new velocity
times the time step is that displacement. -/
theorem C88_global_step {P : DeltaParams} (hdt : P.dt ≠ 0) {cfg : EnvConfig} {scen s0 s1 : SimState ℝ n T}
    {acts : List (Fin n → Act Delta3)} (E : Episode (deltaGlobal P) cfg scen s0 acts s1) {k : Nat} (hk : k < acts.length)
    {t t' : Fin T} (ht : t.val + 1 = cfg.initSteps + k) (ht' : t'.val = cfg.initSteps + k) {i : Fin n} (hc : IsControlled cfg s0 i) :
    let p := s1.simTrajectory i t
    let q := s1.simTrajectory i t'
    let a := (acts[k] i).data
    q.x - p.x = a.dx ∧ q.y - p.y = a.dy ∧ q.yaw - p.yaw = a.dyaw ∧ q.x - p.x = q.velX * P.dt ∧ q.y - p.y = q.velY * P.dt := by
  obtain ⟨h1, h2, h3, h4, h5⟩ := E.controlled_point hk ht ht' hc
  simp only [h1, h2, h3, h4, h5, deltaGlobal, DynamicsModel.ofSingle, deltaGlobalUpdate]
  refine ⟨by ring, by ring, by ring, ?_, ?_⟩ <;> field_simp <;> ring

/-- DeltaGlobal: after any number of steps the object is at its start plus the sum of all commanded displacements. -/
theorem C88_global_path {P : DeltaParams} (hdt : P.dt ≠ 0) {cfg : EnvConfig} {scen s0 s1 : SimState ℝ n T}
    {acts : List (Fin n → Act Delta3)} (E : Episode (deltaGlobal P) cfg scen s0 acts s1) {i : Fin n} (hc : IsControlled cfg s0 i)
    {t₀ : Fin T} (h₀ : t₀.val + 1 = cfg.initSteps) {k : Nat} (hk : k ≤ acts.length) {t : Fin T} (ht : t.val + 1 = cfg.initSteps + k) :
    let p := scen.logTrajectory i t₀
    let q := s1.simTrajectory i t
    q.x = p.x + ((acts.take k).map fun a => (a i).data.dx).sum ∧ q.y = p.y + ((acts.take k).map fun a => (a i).data.dy).sum ∧
      q.yaw = p.yaw + ((acts.take k).map fun a => (a i).data.dyaw).sum := by
  induction k generalizing t with
  | zero =>
    have e : t = t₀ := Fin.ext (by omega)
    subst e
    have hstart : s1.simTrajectory i t = scen.logTrajectory i t := by
      have hf := E.fits
      have hw := E.warm
      have h0 : s0.timestep = (cfg.initSteps : Int) - 1 := by rw [E.reset_data]
      rw [stepMany_frame E.run (by omega) (by omega) i t (Or.inl (by omega)), E.reset_data]
      simp only
      rw [if_pos (by omega)]
    simp [hstart]
  | succ k ih =>
    have hf := E.fits
    obtain ⟨t', ht'⟩ : ∃ t' : Fin T, t'.val + 1 = cfg.initSteps + k := ⟨⟨cfg.initSteps + k - 1, by omega⟩, by
      have := E.warm
      simp only; omega⟩
    obtain ⟨a1, a2, a3⟩ := ih (by omega) ht'
    obtain ⟨b1, b2, b3, -, -⟩ := C88_global_step hdt E (k := k) (by omega) ht' (t' := t) (by omega) hc
    rw [List.take_succ_eq_append_getElem (by omega : k < acts.length)]
    simp only [List.map_append, List.sum_append, List.map_cons, List.map_nil, List.sum_cons, List.sum_nil]
    refine ⟨?_, ?_, ?_⟩ <;> linarith

/-- DeltaLocal: each step puts the object at the commanded point of its own frame and turns it by the commanded angle, and its new
velocity times the time step is the displacement. -/
theorem C88_local_step {P : DeltaParams} (hdt : P.dt ≠ 0) {cfg : EnvConfig} {scen s0 s1 : SimState ℝ n T}
    {acts : List (Fin n → Act Delta3)} (E : Episode (deltaLocal P) cfg scen s0 acts s1) {k : Nat} (hk : k < acts.length)
    {t t' : Fin T} (ht : t.val + 1 = cfg.initSteps + k) (ht' : t'.val = cfg.initSteps + k) {i : Fin n} (hc : IsControlled cfg s0 i) :
    let p := s1.simTrajectory i t
    let q := s1.simTrajectory i t'
    let a := (acts[k] i).data
    (q.x, q.y) = pointAt p.x p.y p.yaw a.dx a.dy ∧ q.yaw - p.yaw = a.dyaw ∧ q.x - p.x = q.velX * P.dt ∧
      q.y - p.y = q.velY * P.dt := by
  obtain ⟨h1, h2, h3, h4, h5⟩ := E.controlled_point hk ht ht' hc
  simp only [h1, h2, h3, h4, h5, deltaLocal, DynamicsModel.ofSingle, deltaLocalUpdate, deltaGlobalUpdate]
  refine ⟨?_, by ring, ?_, ?_⟩
  · simp only [pointAt, heading, leftOf, rotatePoints, rotationMatrix2d, Prod.mk.injEq]
    constructor <;> simp [Matrix.mulVec, dotProduct] <;> ring
  · field_simp; ring
  · field_simp; ring

end

/-- One car standing at the origin, log of four steps. -/
noncomputable def parkedScen : SimState ℝ 1 4 :=
  { simTrajectory := fun _ _ => invalidPt, logTrajectory := fun _ _ => ptAt 0 0 0 0 0
    logTrafficLight := [], objectMetadata := fun _ => ⟨7, 1, true, true, true, false, false⟩
    timestep := 0, sdcPaths := none, roadgraphPoints := none }

/-- A move of one metre and one of three: the car ends four metres away, moving at 30 m/s. -/
example : ∃ s0 s1, Episode (deltaGlobal { dt := 0.1 }) { maxNumObjects := 1, initSteps := 2 } parkedScen s0
    [fun _ => ⟨⟨1, 0, 0⟩, true⟩, fun _ => ⟨⟨3, 0, 0⟩, true⟩] s1 ∧
    (s1.simTrajectory 0 3).x = 4 ∧ (s1.simTrajectory 0 3).velX = 30 := by
  obtain ⟨s0, s1, E⟩ := episode_exists (deltaGlobal { dt := 0.1 }) { maxNumObjects := 1, initSteps := 2 } parkedScen
    [fun _ => ⟨⟨1, 0, 0⟩, true⟩, fun _ => ⟨⟨3, 0, 0⟩, true⟩] rfl (by decide) (by decide) (by decide)
  have hc : IsControlled { maxNumObjects := 1, initSteps := 2 } s0 0 := by
    simp only [IsControlled]
    rw [E.reset_data]
    first | exact rfl | simp [parkedScen]
  refine ⟨s0, s1, E, ?_, ?_⟩
  · rw [(C88_global_path (by norm_num) E hc (t₀ := 1) rfl (k := 2) (by decide) (t := 3) rfl).1]
    simp [parkedScen, ptAt]
    norm_num
  · obtain ⟨h1, -, -, h4, -⟩ := C88_global_step (by norm_num) E (k := 1) (by decide) (t := 2) (t' := 3) rfl rfl hc
    rw [h1] at h4
    simp only [List.getElem_cons_succ, List.getElem_cons_zero] at h4
    norm_num at h4
    linarith

end Waymax
