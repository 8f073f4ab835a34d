import Verif.Spec.Protocol
import Verif.Props.Episode
/-
C17 - C20: the Brax-like and the dm_env wrappers.
-/

namespace Waymax

section
variable {S A O M R : Type}

/-! ### C17: the Brax wrapper -/

/-- One `BraxWrapper.step`, for every wrapped environment: it succeeds exactly when the wrapped step, reward and metrics do,
and the fields of the returned time step are as described in C17. -/
theorem C17_brax_step_spec (env : Env S A O M R) (ts ts' : BraxTimeStep S O M R) (a : A) :
    braxStep env ts a = .ok ts' ↔
      (env.step ts.state a = .ok ts'.state ∧
       env.reward ts.state a = .ok ts'.reward ∧
       env.metrics ts.state = .ok ts'.metrics ∧
       ts'.observation = env.observe ts'.state ∧
       ts'.done = List.zipWith (fun x y => x || y) (env.termination ts'.state) (env.truncation ts'.state) ∧
       ts'.discount = (env.termination ts'.state).map (fun b => if b = true then 0 else 1)) := by
  unfold braxStep
  simp only [bind, Except.bind, pure, Except.pure]
  constructor
  · intro h
    split at h
    · cases h
    · rename_i s hs
      split at h
      · cases h
      · rename_i r hr
        split at h
        · cases h
        · rename_i m hm
          have := Except.ok.inj h
          subst this
          exact ⟨hs, hr, hm, rfl, rfl, rfl⟩
  · rintro ⟨h1, h2, h3, h4, h5, h6⟩
    obtain ⟨s, o, r, dn, dc, m⟩ := ts'
    simp only at h1 h2 h3 h4 h5 h6
    simp [h1, h2, h3, h4, h5, h6]

/-- `BraxWrapper.reset`: wrapped reset, zero reward, unit discount, metrics and observation of the reset state. -/
theorem C17_brax_reset_spec (env : Env S A O M R) (zero : R) (b : Nat) (s : S) (ts : BraxTimeStep S O M R) :
    braxReset env zero b s = .ok ts ↔
      (env.reset s = .ok ts.state ∧ env.metrics ts.state = .ok ts.metrics ∧
       ts.observation = env.observe ts.state ∧ ts.reward = zero ∧ ts.discount = List.replicate b 1 ∧
       ts.done = env.termination ts.state) := by
  unfold braxReset
  simp only [bind, Except.bind, pure, Except.pure]
  constructor
  · intro h
    split at h
    · cases h
    · rename_i s hs
      split at h
      · cases h
      · rename_i m hm
        have := Except.ok.inj h
        subst this
        exact ⟨hs, hm, rfl, rfl, rfl, rfl⟩
  · rintro ⟨h1, h2, h3, h4, h5, h6⟩
    obtain ⟨s, o, r, dn, dc, m⟩ := ts
    simp only at h1 h2 h3 h4 h5 h6
    simp [h1, h2, h3, h4, h5, h6]

end

section
variable {α D M R : Type} [ScalarOps α] {n T : Nat} [NeZero T]

theorem braxSteps_run {d : DynamicsModel α D n} {cfg : EnvConfig} {metrics : SimState α n T → Except Err M}
    {reward : SimState α n T → (Fin n → Act D) → Except Err R} {acts : List (Fin n → Act D)}
    {ts ts' : BraxTimeStep (SimState α n T) (SimState α n T) M R}
    (h : braxSteps (baseEnv d cfg metrics reward) ts acts = .ok ts') :
    stepMany d cfg ts.state acts = .ok ts'.state ∧
    (acts ≠ [] → ts'.done = [ts'.state.isDone] ∧ ts'.discount = [1] ∧ ts'.observation = ts'.state) := by
  induction acts generalizing ts with
  | nil => simp only [braxSteps, Except.ok.injEq] at h; subst h; exact ⟨rfl, fun h => absurd rfl h⟩
  | cons a as ih =>
    unfold braxSteps at h
    cases hs : braxStep (baseEnv d cfg metrics reward) ts a with
    | error e => simp [hs, bind, Except.bind] at h
    | ok t1 =>
      simp only [hs, bind, Except.bind] at h
      obtain ⟨h1, h2⟩ := ih h
      obtain ⟨g1, -, -, g4, g5, g6⟩ := (C17_brax_step_spec _ _ _ _).1 hs
      have g1' : step d cfg ts.state a = .ok t1.state := g1
      refine ⟨by unfold stepMany; rw [g1']; exact h1, fun _ => ?_⟩
      cases as with
      | nil =>
        simp only [braxSteps, Except.ok.injEq] at h; subst h
        refine ⟨?_, ?_, g4⟩
        · rw [g5]; simp [baseEnv, termination, (C05_done_iff_truncated t1.state).2.1]
        · rw [g6]; simp [baseEnv, termination]
      | cons b bs => exact h2 (by simp)

/-- Over an episode of the wrapped `BaseEnvironment`: after reset and any number `k ≥ 1` of wrapper steps the state is the one
`k` environment steps produce, and `done` is reported exactly when `k ≥ T - init_steps`; the discount stays 1. -/
theorem C17_brax_episode {d : DynamicsModel α D n} {cfg : EnvConfig} {metrics : SimState α n T → Except Err M}
    {reward : SimState α n T → (Fin n → Act D) → Except Err R} {zero : R} {b : Nat} {scen : SimState α n T}
    {acts : List (Fin n → Act D)} {ts ts' : BraxTimeStep (SimState α n T) (SimState α n T) M R}
    (h0 : braxReset (baseEnv d cfg metrics reward) zero b scen = .ok ts)
    (h : braxSteps (baseEnv d cfg metrics reward) ts acts = .ok ts') (hne : acts ≠ []) :
    reset cfg scen = .ok ts.state ∧ stepMany d cfg ts.state acts = .ok ts'.state ∧
    ts'.done = [decide (T ≤ cfg.initSteps + acts.length)] ∧ ts'.discount = [1] := by
  have hr : reset cfg scen = .ok ts.state := ((C17_brax_reset_spec _ _ _ _ _).1 h0).1
  obtain ⟨h1, h2⟩ := braxSteps_run h
  obtain ⟨h3, h4, -⟩ := h2 hne
  refine ⟨hr, h1, ?_, h4⟩
  rw [h3]
  have := (C05_episode_clock hr h1).2.2
  congr 1
  rw [Bool.eq_iff_iff, this, decide_eq_true_eq]

theorem braxSteps_exists (d : DynamicsModel α D n) (cfg : EnvConfig) (m0 : M) (r0 : R)
    (ts : BraxTimeStep (SimState α n T) (SimState α n T) M R) (acts : List (Fin n → Act D))
    (h : cfg.controlledObject ≠ .NON_SDC) :
    ∃ ts', braxSteps (baseEnv d cfg (fun _ => .ok m0) (fun _ _ => .ok r0)) ts acts = .ok ts' := by
  induction acts generalizing ts with
  | nil => exact ⟨ts, rfl⟩
  | cons a as ih =>
    obtain ⟨s', hs⟩ := step_exists d cfg ts.state a h
    have hs' : (baseEnv d cfg (fun _ => .ok m0) (fun _ _ => .ok r0)).step ts.state a = .ok s' := hs
    have : ∃ t1, braxStep (baseEnv d cfg (fun _ => .ok m0) (fun _ _ => .ok r0)) ts a = .ok t1 :=
      ⟨⟨s', s', r0, [truncation s'], [1], m0⟩, (C17_brax_step_spec _ _ _ _).2 ⟨hs', rfl, rfl, rfl, rfl, rfl⟩⟩
    obtain ⟨t1, h1⟩ := this
    obtain ⟨t2, h2⟩ := ih t1
    exact ⟨t2, by unfold braxSteps; rw [h1]; exact h2⟩

example : ∃ ts ts', braxReset (baseEnv stateDynamics exCfg (fun _ => .ok ()) (fun _ _ => .ok (0 : Int))) 0 1 exScen = .ok ts ∧
    braxSteps (baseEnv stateDynamics exCfg (fun _ => .ok ()) (fun _ _ => .ok (0 : Int))) ts
      [exAct true, exAct false, exAct true] = .ok ts' := by
  have : ∃ ts, braxReset (baseEnv stateDynamics exCfg (fun _ => .ok ()) (fun _ _ => .ok (0 : Int))) 0 1 exScen = .ok ts :=
    ⟨_, rfl⟩
  obtain ⟨ts, h⟩ := this
  obtain ⟨ts', h'⟩ := braxSteps_exists (T := 4) stateDynamics exCfg () (0 : Int) ts
    [exAct true, exAct false, exAct true] (by decide)
  exact ⟨ts, ts', h, h'⟩

/-! ### C18: done after a Brax reset -/

/-- What C18 asks for. -/
def BraxResetReportsDone (T : Nat) [NeZero T] (d : DynamicsModel α D n) (cfg : EnvConfig) (m0 : M) (r0 : R) : Prop :=
  ∀ (scen : SimState α n T) ts, braxReset (baseEnv d cfg (fun _ => .ok m0) (fun _ _ => .ok r0)) r0 1 scen = .ok ts →
    ts.done = [termination ts.state || truncation ts.state]

/-- Exact behaviour: `reset` never reports done; so C18 holds exactly when the reset state has a step left. -/
theorem C18_brax_reset_done_partial {d : DynamicsModel α D n} {cfg : EnvConfig} {metrics : SimState α n T → Except Err M}
    {reward : SimState α n T → (Fin n → Act D) → Except Err R} {zero : R} {b : Nat} {scen : SimState α n T}
    {ts : BraxTimeStep (SimState α n T) (SimState α n T) M R}
    (h0 : braxReset (baseEnv d cfg metrics reward) zero b scen = .ok ts) :
    ts.done = [false] ∧ (ts.done = [termination ts.state || truncation ts.state] ↔ cfg.initSteps < T) := by
  obtain ⟨h1, -, -, -, -, h6⟩ := (C17_brax_reset_spec _ _ _ _ _).1 h0
  have hr : reset cfg scen = .ok ts.state := h1
  have hd : ts.done = [false] := h6
  refine ⟨hd, ?_⟩
  have hcl := (C05_episode_clock (d := d) (acts := []) hr rfl).2.2
  rw [hd, (C05_done_iff_truncated ts.state).2.1]
  simp only [termination, Bool.false_or, List.cons.injEq, and_true, List.length_nil, Nat.add_zero] at hcl ⊢
  constructor
  · intro hh
    by_cases hT : T ≤ cfg.initSteps
    · rw [hcl.2 hT] at hh; cases hh
    · omega
  · intro hh
    cases hx : ts.state.isDone with
    | false => rfl
    | true => have := hcl.1 hx; omega

/-- C18 fails: with `init_steps` equal to the log length the reset state is truncated, but `done` is False. -/
theorem C18_violated : ¬ BraxResetReportsDone 4 (stateDynamics : DynamicsModel Int (StateRow Int) 2)
    { exCfg with initSteps := 4 } () (0 : Int) := by
  intro h
  have h0 : braxReset (baseEnv (T := 4) (stateDynamics : DynamicsModel Int (StateRow Int) 2) { exCfg with initSteps := 4 }
      (fun _ => .ok ()) (fun _ _ => .ok (0 : Int))) 0 1 exScen = .ok _ := rfl
  have h1 := (C18_brax_reset_done_partial h0).2.1 (h exScen _ h0)
  exact absurd h1 (by decide)

/-! ### C19: the dm_env protocol -/

/-- A rejected step (before the first reset, or after the end) changes nothing at all, for every wrapped environment. -/
theorem C19_rejected_step_changes_nothing {S A O Raw : Type} (env : Env S A O M R) (mk : Raw → Except Err A)
    (rw' : S → Raw → Except Err R) (w : DmEnv S) (a : Raw) :
    (w.initialized = false → dmStep env mk rw' w a = (w, .error .notInitialized)) ∧
    (w.initialized = true → w.done = true → dmStep env mk rw' w a = (w, .error .alreadyFinished)) := by
  unfold dmStep
  constructor
  · intro h; simp [h]
  · intro h1 h2; simp [h1, h2]

/-- A step that returns a time step: the reward is that of the old state, the new state is the environment's step with all
objects' actions marked valid (`mk`), and the observation is that of the new state. -/
theorem C19_step_values {S A O Raw : Type} {env : Env S A O M R} {mk : Raw → Except Err A}
    {rw' : S → Raw → Except Err R} {w w' : DmEnv S} {a : Raw} {ts : DmTimeStep O R}
    (h : dmStep env mk rw' w a = (w', .ok ts)) :
    ∃ cur next act r, w.curState = some cur ∧ rw' cur a = .ok r ∧ mk a = .ok act ∧ env.step cur act = .ok next ∧
      w'.curState = some next ∧ w'.data = w.data ∧ ts.reward = some r ∧ ts.observation = env.observe next ∧
      dmSimulationState w' = .ok (some next) ∧
      (ts.stepType = .LAST ↔ w'.done = true) ∧
      (w'.done = true ↔
        ∀ b ∈ List.zipWith (fun x y => x || y) (env.termination next) (env.truncation next), b = true) := by
  unfold dmStep at h
  cases hi : w.initialized with
  | false => simp [hi] at h
  | true =>
    cases hd : w.done with
    | true => simp [hi, hd] at h
    | false =>
      simp only [hi, hd, Bool.not_true, Bool.false_eq_true, if_false] at h
      split at h
      · cases h
      · rename_i cur hcur
        split at h
        · cases h
        · rename_i r hr
          split at h
          · cases h
          · rename_i act hact
            split at h
            · cases h
            · rename_i next hnext
              split at h
              · rename_i hall
                simp only [Prod.mk.injEq, Except.ok.injEq] at h
                obtain ⟨rfl, rfl⟩ := h
                refine ⟨cur, next, act, r, hcur, hr, hact, hnext, rfl, rfl, rfl, rfl, by simp [dmSimulationState],
                  by simp, ?_⟩
                simpa using hall
              · split at h
                · simp at h
                · rename_i hall hany
                  simp only [Prod.mk.injEq, Except.ok.injEq] at h
                  obtain ⟨rfl, rfl⟩ := h
                  refine ⟨cur, next, act, r, hcur, hr, hact, hnext, rfl, rfl, rfl, rfl, by simp [dmSimulationState],
                    by simp, ?_⟩
                  simp only [Bool.false_eq_true, false_iff]
                  simpa using hall

/-- How the wrapper's attributes relate to the phase of the protocol. -/
def DmInv (w : DmEnv (SimState α n T)) : Phase → Prop
  | .idle => w.initialized = false ∧ w.done = false
  | .finished => w.initialized = true ∧ w.done = true
  | .running left => w.initialized = true ∧ w.done = false ∧ 1 ≤ left ∧
      ∃ s, w.curState = some s ∧ s.remainingTimesteps = left

/-- For every stream of scenarios and every sequence of calls, of any length, the wrapper answers as the protocol automaton
does, with episodes of exactly `T - init_steps` steps. Assumed: the scenarios have the configured number of objects and at
least one step after the warm-up; rewards and the action reshape do not raise. -/
theorem C19_protocol {Raw : Type} (d : DynamicsModel α D n) (cfg : EnvConfig) (metrics : SimState α n T → Except Err M)
    (reward : SimState α n T → (Fin n → Act D) → Except Err R) (mk : Raw → Fin n → Act D)
    (rew : SimState α n T → Raw → R)
    (hobj : cfg.maxNumObjects = n) (hleft : cfg.initSteps < T) (hctl : cfg.controlledObject ≠ .NON_SDC)
    (first : SimState α n T) (data : List (SimState α n T)) (w : DmEnv (SimState α n T))
    (hw : dmInit (first :: data) = .ok w) (calls : List (DmCall Raw)) :
    (dmRun (baseEnv d cfg metrics reward) SimState.isDone (fun a => .ok (mk a)) (fun s a => .ok (rew s a)) w calls).2.map
      outcome = expectedRun (T - cfg.initSteps) (.idle, data.length) calls := by
  have hgen : ∀ (calls : List (DmCall Raw)) (w : DmEnv (SimState α n T)) (ph : Phase), DmInv w ph →
      (dmRun (baseEnv d cfg metrics reward) SimState.isDone (fun a => .ok (mk a)) (fun s a => .ok (rew s a)) w calls).2.map
        outcome = expectedRun (T - cfg.initSteps) (ph, w.data.length) calls := by
    intro calls
    induction calls with
    | nil => intro w ph _; rfl
    | cons c cs ih =>
      intro w ph hinv
      -- one call answers as expected and keeps the invariant
      have one : ∃ ph', DmInv (dmCall (baseEnv d cfg metrics reward) SimState.isDone (fun a => .ok (mk a))
            (fun s a => .ok (rew s a)) w c).1 ph' ∧
          expected (T - cfg.initSteps) (ph, w.data.length) c =
            ((ph', (dmCall (baseEnv d cfg metrics reward) SimState.isDone (fun a => .ok (mk a))
              (fun s a => .ok (rew s a)) w c).1.data.length),
             outcome (dmCall (baseEnv d cfg metrics reward) SimState.isDone (fun a => .ok (mk a))
              (fun s a => .ok (rew s a)) w c).2) := by
        cases c with
        | reset =>
          simp only [dmCall]
          unfold dmReset
          cases hdata : w.data with
          | nil => exact ⟨ph, hinv, by simp [hdata, expected, outcome]⟩
          | cons sc rest =>
            have hr : ∃ s, reset cfg sc = .ok s := by
              rw [reset_eq, if_pos hobj, if_pos (by omega)]; exact ⟨_, rfl⟩
            obtain ⟨s, hs⟩ := hr
            have hs' : (baseEnv d cfg metrics reward).reset sc = .ok s := hs
            have hcl := C05_episode_clock (d := d) (acts := []) hs rfl
            simp only [List.length_nil, Nat.add_zero] at hcl
            have hnd : s.isDone = false := by
              cases hx : s.isDone with
              | false => rfl
              | true => have := hcl.2.2.1 hx; omega
            simp only [hs', hnd]
            refine ⟨.running (T - cfg.initSteps), ⟨rfl, rfl, by omega, s, rfl, ?_⟩, ?_⟩
            · rw [hcl.2.1]; simp; omega
            · cases ph <;> simp [expected, outcome]
        | step a =>
          simp only [dmCall]
          cases ph with
          | idle =>
            rw [(C19_rejected_step_changes_nothing _ _ _ w a).1 hinv.1]
            exact ⟨.idle, hinv, by simp [expected, outcome]⟩
          | finished =>
            rw [(C19_rejected_step_changes_nothing _ _ _ w a).2 hinv.1 hinv.2]
            exact ⟨.finished, hinv, by simp [expected, outcome]⟩
          | running left =>
            obtain ⟨hi, hd, hl, s, hcur, hrem⟩ := hinv
            obtain ⟨s', hs⟩ := step_exists d cfg s (mk a) hctl
            have hs' : (baseEnv d cfg metrics reward).step s (mk a) = .ok s' := hs
            have hrem' : s'.remainingTimesteps = (left : Int) - 1 := by
              obtain ⟨m, -, rfl⟩ := step_ok hs
              simp only [SimState.remainingTimesteps] at hrem ⊢; omega
            have hdone : List.zipWith (fun x y => x || y) ((baseEnv d cfg metrics reward).termination s')
                ((baseEnv d cfg metrics reward).truncation s') = [decide (left ≤ 1)] := by
              simp only [baseEnv, termination, truncation, hrem', List.zipWith, Bool.false_or]
              congr 1
              exact decide_eq_decide.2 (by omega)
            unfold dmStep
            simp only [hi, hd, hcur, hs', hdone, Bool.not_true, Bool.false_eq_true, if_false]
            by_cases hle : left ≤ 1
            · refine ⟨.finished, ?_, ?_⟩
              · simp [hle, DmInv]
              · simp [hle, expected, outcome]
            · refine ⟨.running (left - 1), ?_, ?_⟩
              · simp only [hle, decide_false, List.all_cons, List.all_nil, id, Bool.false_and, Bool.false_eq_true, if_false,
                  List.any_cons, List.any_nil, Bool.or_false]
                exact ⟨rfl, rfl, by omega, s', rfl, by rw [hrem']; omega⟩
              · simp [hle, expected, outcome]
      obtain ⟨ph', hinv', hex⟩ := one
      unfold dmRun expectedRun
      simp only [List.map_cons]
      rw [ih _ _ hinv', hex]
  unfold dmInit at hw
  simp only [Except.ok.injEq] at hw
  subst hw
  exact hgen calls _ .idle ⟨rfl, rfl⟩

/-- The hypotheses hold for the example scenario (4 logged steps, 1 warm-up step, two scenarios in the stream), and the
expected outcomes of a call sequence with a premature step, a full episode, a step too many and a second reset are: -/
example : ∃ w, dmInit [exScen, exScen, exScen] = .ok w ∧ exCfg.maxNumObjects = 2 ∧ exCfg.initSteps < 4 ∧
    expectedRun (4 - exCfg.initSteps) (.idle, 2)
      [.step (), .reset, .step (), .step (), .step (), .step (), .reset, .step (), .reset] =
      [.raised .notInitialized, .time .FIRST, .time .MID, .time .MID, .time .LAST, .raised .alreadyFinished,
       .time .FIRST, .time .MID, .raised .stopIteration] :=
  ⟨_, rfl, rfl, by decide, by decide⟩

/-! ### C20: a failed reset -/

/-- What C20 asks for: after a `reset` that raised because the new scenario is already finished, a step is rejected. -/
def FailedResetBlocksStep (T : Nat) [NeZero T] (d : DynamicsModel α D n) (cfg : EnvConfig) (m0 : M) (r0 : R)
    (act : Fin n → Act D) : Prop :=
  ∀ (w w' : DmEnv (SimState α n T)),
    dmReset (R := R) (baseEnv d cfg (fun _ => .ok m0) (fun _ _ => .ok r0)) SimState.isDone w = (w', .error .notInitialized) →
    ∃ e, (dmStep (baseEnv d cfg (fun _ => .ok m0) (fun _ _ => .ok r0)) (fun (_ : Unit) => .ok act) (fun _ _ => .ok r0)
      w' ()).2 = .error e

/-- Exact behaviour of a reset that raises because the scenario is finished: the wrapper counts as initialised, holds the
finished state and keeps the `done` flag of the previous episode. So the next step is rejected exactly if the previous episode
had ended (or the step itself raises). -/
theorem C20_failed_reset_partial {S A O Raw : Type} {env : Env S A O M R} {isDone : S → Bool} {w w' : DmEnv S}
    {sc s : S} {rest : List S} (hd : w.data = sc :: rest) (hr : env.reset sc = .ok s) (hs : isDone s = true)
    (h : dmReset env isDone w = (w', .error .notInitialized)) (mk : Raw → Except Err A) (rew : S → Raw → Except Err R)
    (a : Raw) :
    w' = { w with curState := some s, initialized := true, data := rest } ∧
    (w.done = true → dmStep env mk rew w' a = (w', .error .alreadyFinished)) := by
  have : w' = { w with curState := some s, initialized := true, data := rest } := by
    unfold dmReset at h
    simp [hd, hr, hs] at h
    exact h.symm
  refine ⟨this, fun hdone => ?_⟩
  apply (C19_rejected_step_changes_nothing env mk rew w' a).2
  · rw [this]
  · rw [this]; exact hdone

/-- C20 fails: on a fresh wrapper, a reset that raises is followed by a step that is accepted. -/
theorem C20_violated : ¬ FailedResetBlocksStep 4 (stateDynamics : DynamicsModel Int (StateRow Int) 2)
    { exCfg with initSteps := 4 } () (0 : Int) (exAct true) := by
  intro h
  obtain ⟨e, he⟩ := h { curState := none, initialized := false, done := false, data := [exScen] } _ rfl
  exact absurd he (by simp [dmStep, baseEnv, step, envControlMask, getControlMask, exCfg, bind, Except.bind,
    termination, truncation, SimState.remainingTimesteps, pure, Except.pure])

end

end Waymax
