import Verif.Spec.DmStream
import Verif.Props.Interfaces
/-
C184: every `reset` of the DeepMind interface starts the next scenario of the generator, except that the first scenario is never played; an
episode does not depend on the ones before it.
-/

namespace Waymax

section
variable {S A O M R Raw : Type} {env : Env S A O M R} {isDone : S → Bool} {mk : Raw → Except Err A} {rew : S → Raw → Except Err R}

theorem dmStep_data (w : DmEnv S) (a : Raw) : (dmStep env mk rew w a).1.data = w.data := by
  unfold dmStep
  repeat' first | rfl | split
  dsimp only
  repeat' first | rfl | split

theorem dmReset_answer (w : DmEnv S) :
    (dmReset (R := R) env isDone w).2 = (match w.data with | [] => .error .stopIteration | sc :: _ => startOf env isDone sc) ∧
    (dmReset (R := R) env isDone w).1.data = w.data.tail := by
  unfold dmReset startOf
  cases hd : w.data with
  | nil => exact ⟨rfl, by simp [hd]⟩
  | cons sc rest =>
    cases hr : env.reset sc with
    | error e => simp [hr]
    | ok s =>
      by_cases hs : isDone s = true
      · simp [hr, hs]
      · simp [hr, hs]

/-- The resets among any calls go through the scenarios that are left, one for each, also if the reset is refused. -/
theorem C184_resets_exact (w : DmEnv S) (calls : List (DmCall Raw)) :
    resetAnswers calls (dmRun env isDone mk rew w calls).2 = startsOf env isDone (numResets calls) w.data ∧
    (dmRun env isDone mk rew w calls).1.data = w.data.drop (numResets calls) := by
  induction calls generalizing w with
  | nil => exact ⟨rfl, rfl⟩
  | cons c cs ih =>
    cases c with
    | step a =>
      obtain ⟨h1, h2⟩ := ih (dmStep env mk rew w a).1
      rw [dmStep_data] at h1 h2
      exact ⟨h1, h2⟩
    | reset =>
      obtain ⟨h1, h2⟩ := ih (dmReset (R := R) env isDone w).1
      obtain ⟨g1, g2⟩ := dmReset_answer (R := R) (env := env) (isDone := isDone) w
      rw [g2] at h1 h2
      simp only [dmRun, dmCall, resetAnswers, numResets, h1, h2, g1]
      cases w.data with
      | nil => exact ⟨rfl, by simp⟩
      | cons sc rest => exact ⟨rfl, by simp⟩

/-- C184: with any calls in between, the resets play the scenarios of the generator in their order from the second on. -/
theorem C184_stream_partial (first : S) (data : List S) (w : DmEnv S) (hw : dmInit (first :: data) = .ok w) (calls : List (DmCall Raw)) :
    resetAnswers calls (dmRun env isDone mk rew w calls).2 = startsOf env isDone (numResets calls) data ∧
    (dmRun env isDone mk rew w calls).1.data = data.drop (numResets calls) := by
  have := C184_resets_exact (env := env) (isDone := isDone) (mk := mk) (rew := rew) w calls
  obtain rfl : w = { curState := none, initialized := false, done := false, data := data } := (Except.ok.inj hw).symm
  exact this

/-- C184: an episode does not depend on what happened before. After a successful reset all further calls are answered as by a wrapper that was
never used before, on the same scenarios. -/
theorem C184_independent (w : DmEnv S) (ts : DmTimeStep O R) (h : (dmReset env isDone w).2 = .ok ts) (calls : List (DmCall Raw)) :
    dmRun env isDone mk rew w (.reset :: calls) =
      dmRun env isDone mk rew { curState := none, initialized := false, done := false, data := w.data } (.reset :: calls) := by
  have : dmReset (R := R) env isDone w = dmReset env isDone { curState := none, initialized := false, done := false, data := w.data } := by
    unfold dmReset at h ⊢
    cases hd : w.data with
    | nil => simp [hd] at h
    | cons sc rest =>
      rw [hd] at h
      simp only at h ⊢
      cases hr : env.reset sc with
      | error e => simp [hr] at h
      | ok s =>
        rw [hr] at h
        simp only at h ⊢
        by_cases hs : isDone s = true
        · simp [hs] at h
        · rw [if_neg hs, if_neg hs]
  simp only [dmRun, dmCall, this]

/-- The scenario the constructor takes is not given back: the expectation fails for every environment that starts two scenarios differently. -/
theorem C184_first_skipped (hfirst : ∃ a b, startOf env isDone a ≠ startOf env isDone b) : ¬ EveryScenarioPlayed env isDone mk rew := by
  intro h
  obtain ⟨a, b, hab⟩ := hfirst
  have h1 := h [a, b] _ rfl [.reset]
  have h2 := (C184_stream_partial (env := env) (isDone := isDone) (mk := mk) (rew := rew) a [b] _ rfl [.reset]).1
  rw [h2] at h1
  simp only [numResets, startsOf, List.cons.injEq, and_true] at h1
  exact hab h1.symm

end

/-- C184: the full expectation fails for the base environment. -/
theorem C184_violated : ¬ EveryScenarioPlayed (baseEnv stateDynamics exCfg (fun _ => .ok ()) (fun _ _ => .ok (0 : Int)))
    (SimState.isDone (α := Int) (n := 2) (T := 4)) (Except.ok (ε := Err)) (fun _ _ => .ok 0) := by
  refine C184_first_skipped ⟨exScen, { exScen with logTrajectory := fun _ _ => exPt 5 true }, fun h => ?_⟩
  have := congrArg (fun r => match r with | .ok ts => (ts.observation.logTrajectory 0 0).x | .error _ => 0) h
  exact absurd this (by decide)

/-- A concrete case: three scenarios, two episodes with a step that is refused in between. -/
example : resetAnswers [DmCall.step (exAct true), .reset, .step (exAct true), .reset, .reset]
      (dmRun (baseEnv stateDynamics exCfg (fun _ => .ok ()) (fun _ _ => .ok (0 : Int))) (SimState.isDone (α := Int) (n := 2) (T := 4))
        (Except.ok (ε := Err)) (fun _ _ => .ok 0)
        { curState := none, initialized := false, done := false, data := [exScen, { exScen with logTrajectory := fun _ _ => exPt 5 true }] }
        [.step (exAct true), .reset, .step (exAct true), .reset, .reset]).2 =
    [startOf (baseEnv stateDynamics exCfg (fun _ => .ok ()) (fun _ _ => .ok (0 : Int))) SimState.isDone exScen,
     startOf (baseEnv stateDynamics exCfg (fun _ => .ok ()) (fun _ _ => .ok (0 : Int))) SimState.isDone
       { exScen with logTrajectory := fun _ _ => exPt 5 true }, .error .stopIteration] :=
  (C184_stream_partial exScen [exScen, { exScen with logTrajectory := fun _ _ => exPt 5 true }] _ rfl _).1

/-- The hypothesis of `C184_independent` is met in the middle of an episode. -/
example : ∃ ts, (dmReset (R := Int) (baseEnv stateDynamics exCfg (fun _ => .ok ()) (fun _ _ => .ok (0 : Int))) SimState.isDone
    { curState := some exScen, initialized := true, done := true, data := [exScen] }).2 = .ok ts := ⟨_, rfl⟩

end Waymax
