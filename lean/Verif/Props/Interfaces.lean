import Verif.Spec.Interfaces
import Verif.Props.Wrappers
import Verif.Props.PlanningMetrics
/-
C183: driving a scenario through a rollout, the Brax interface or the DeepMind interface gives the same run.
-/

namespace Waymax

section
variable {S A O M R X K P C : Type}

/-- What a rollout records, as a chain of entries. -/
structure RecordedRun (env : Env S A O M R) (es : List (RolloutEntry S A O M R)) : Prop where
  step : ∀ k (h : k + 1 < es.length), env.step es[k].state es[k].action = .ok es[k + 1].state
  observation : ∀ k (h : k < es.length), es[k].observation = env.observe es[k].state
  metrics : ∀ k (h : k < es.length), env.metrics es[k].state = .ok es[k].metrics
  reward : ∀ k (h : k < es.length), env.reward es[k].state es[k].action = .ok es[k].reward

theorem rollout_recorded {env : Env S A O M R} {actor : Actor S A X K P C} {split : K → K × K} {params : P}
    {zerosLike : A → A} {scen : S} {rng : K} {n : Nat} {es : List (RolloutEntry S A O M R)}
    (h : rollout env actor split params zerosLike scen rng n = .ok es) : RecordedRun env es := by
  obtain ⟨-, hlen, -, hs, ho, -⟩ := C14_rollout_spec h
  exact ⟨fun k hk => hs k (by omega), fun k hk => (ho k (by omega)).1, fun k hk => (ho k (by omega)).2.1, fun k hk => (ho k (by omega)).2.2⟩

theorem RecordedRun.tail {env : Env S A O M R} {e : RolloutEntry S A O M R} {es : List (RolloutEntry S A O M R)} (h : RecordedRun env (e :: es)) :
    RecordedRun env es :=
  ⟨fun k hk => h.step (k + 1) (by simpa using hk), fun k hk => h.observation (k + 1) (by simpa using hk),
    fun k hk => h.metrics (k + 1) (by simpa using hk), fun k hk => h.reward (k + 1) (by simpa using hk)⟩

theorem recordedActions_cons (e e' : RolloutEntry S A O M R) (es : List (RolloutEntry S A O M R)) :
    recordedActions (e :: e' :: es) = e.action :: recordedActions (e' :: es) := rfl

theorem braxTrace_go {env : Env S A O M R} (es : List (RolloutEntry S A O M R)) (hne : es ≠ []) (h : RecordedRun env es) (ts : BraxTimeStep S O M R)
    (hs : ts.state = (es.head hne).state) (ho : ts.observation = (es.head hne).observation) :
    ∃ tss, braxTrace.go env ts (recordedActions es) = .ok tss ∧ BraxAgrees es tss ∧ tss.head? = some ts ∧
      ∀ k (_ : k + 1 < es.length) (_ : k + 1 < tss.length), tss[k + 1].metrics = es[k].metrics := by
  induction es generalizing ts with
  | nil => exact absurd rfl hne
  | cons e es ih =>
    cases es with
    | nil =>
      refine ⟨[ts], rfl, ⟨rfl, fun k hk => ?_, fun k hk => ?_, fun k hk => by simp at hk⟩, rfl, fun k hk => by simp at hk⟩
      · obtain rfl : k = 0 := by simpa using hk
        exact hs
      · obtain rfl : k = 0 := by simpa using hk
        exact ho
    | cons e' es =>
      simp only [List.head_cons] at hs ho
      have h0 := h.step 0 (by simp)
      simp only [List.getElem_cons_zero, Nat.zero_add, List.getElem_cons_succ] at h0
      have hm := h.metrics 0 (by simp)
      have hr := h.reward 0 (by simp)
      have ho' := h.observation 1 (by simp)
      simp only [List.getElem_cons_zero, List.getElem_cons_succ] at hm hr ho'
      obtain ⟨ts', hts⟩ : ∃ ts', braxStep env ts e.action = .ok ts' := by
        unfold braxStep
        rw [hs, h0]
        simp only [bind, Except.bind, hr, hm, pure, Except.pure]
        exact ⟨_, rfl⟩
      obtain ⟨q1, q2, q3, q4, -⟩ := (C17_brax_step_spec env ts ts' e.action).1 hts
      rw [hs] at q1 q2 q3
      have e1 : ts'.state = e'.state := Except.ok.inj (q1.symm.trans h0)
      have e2 : ts'.reward = e.reward := Except.ok.inj (q2.symm.trans hr)
      have e3 : ts'.metrics = e.metrics := Except.ok.inj (q3.symm.trans hm)
      obtain ⟨tss, g1, g2, g3, g4⟩ := ih (by simp) h.tail ts' e1 (by rw [q4, e1]; exact ho'.symm)
      have hpos : 0 < tss.length := by rw [g2.length]; simp
      have hhead : tss[0] = ts' := by
        rw [List.head?_eq_getElem?, List.getElem?_eq_getElem hpos] at g3
        exact Option.some.inj g3
      refine ⟨ts :: tss, ?_, ⟨by simp [g2.length], fun k hk => ?_, fun k hk => ?_, fun k hk => ?_⟩, rfl, fun k hk _ => ?_⟩
      · rw [recordedActions_cons]
        simp only [braxTrace.go, hts, bind, Except.bind, g1, pure, Except.pure]
      · cases k with
        | zero => exact hs
        | succ k => exact g2.state k (by simpa using hk)
      · cases k with
        | zero => exact ho
        | succ k => exact g2.observation k (by simpa using hk)
      · cases k with
        | zero => simp only [List.getElem_cons_zero, List.getElem_cons_succ, Nat.zero_add, hhead, e2]
        | succ k => exact g2.reward k (by simpa using hk)
      · cases k with
        | zero => simp only [List.getElem_cons_zero, List.getElem_cons_succ, Nat.zero_add, hhead, e3]
        | succ k => exact g4 k (by simpa using hk) (by rw [g2.length]; simpa using hk)

/-- C183: feeding the actions a rollout recorded to the Brax interface, on the same scenario, succeeds and shows the same states,
observations and rewards, for every environment, actor and number of steps. Its metrics are those of the rollout one entry earlier. -/
theorem C183_brax {env : Env S A O M R} {actor : Actor S A X K P C} {split : K → K × K} {params : P} {zerosLike : A → A} {scen : S} {rng : K}
    {n : Nat} {es : List (RolloutEntry S A O M R)} (h : rollout env actor split params zerosLike scen rng n = .ok es) (zero : R) (batch : Nat) :
    ∃ tss, braxTrace env zero batch scen (recordedActions es) = .ok tss ∧ BraxAgrees es tss ∧
      (∀ h0 : 0 < tss.length, tss[0].reward = zero ∧ ∀ h1 : 0 < es.length, tss[0].metrics = es[0].metrics) ∧
      ∀ k (_ : k + 1 < es.length) (_ : k + 1 < tss.length), tss[k + 1].metrics = es[k].metrics := by
  obtain ⟨-, hlen, hreset, -⟩ := C14_rollout_spec h
  have hrec := rollout_recorded h
  have hne : es ≠ [] := by intro hc; rw [hc] at hlen; simp at hlen
  have hpos : 0 < es.length := by omega
  have hm := hrec.metrics 0 hpos
  obtain ⟨ts, hts⟩ : ∃ ts, braxReset env zero batch scen = .ok ts := by
    unfold braxReset
    rw [hreset]
    simp only [bind, Except.bind, hm, pure, Except.pure]
    exact ⟨_, rfl⟩
  obtain ⟨q1, q2, q3, q4, -⟩ := (C17_brax_reset_spec env zero batch scen ts).1 hts
  have e1 : ts.state = es[0].state := Except.ok.inj (q1.symm.trans hreset)
  have e2 : ts.metrics = es[0].metrics := by
    rw [e1] at q2
    exact Except.ok.inj (q2.symm.trans hm)
  have hhd : es.head hne = es[0] := (List.getElem_zero hpos).symm
  obtain ⟨tss, g1, g2, g3, g4⟩ := braxTrace_go es hne hrec ts (by rw [hhd, e1]) (by rw [hhd, q3, e1]; exact (hrec.observation 0 hpos).symm)
  refine ⟨tss, ?_, g2, fun h0 => ?_, g4⟩
  · unfold braxTrace
    simp only [hts, bind, Except.bind, g1]
  · rw [List.head?_eq_getElem?, List.getElem?_eq_getElem h0] at g3
    rw [Option.some.inj g3]
    exact ⟨q4, fun _ => e2⟩

theorem dmRun_steps {Raw : Type} {env : Env S A O M R} {isDone : S → Bool} {mk : Raw → Except Err A} {rew : S → Raw → Except Err R}
    (es : List (RolloutEntry S A O M R)) (hne : es ≠ []) (h : RecordedRun env es) (raws : List Raw) (hlen : raws.length + 1 = es.length)
    (hraw : ∀ k (hk : k < raws.length) (hk' : k < es.length), mk raws[k] = .ok es[k].action ∧ ∀ s, rew s raws[k] = env.reward s es[k].action)
    (hrun : ∀ k (hk : k + 2 < es.length),
      List.zipWith (· || ·) (env.termination es[k + 1].state) (env.truncation es[k + 1].state) ≠ [] ∧
      ∀ b ∈ List.zipWith (· || ·) (env.termination es[k + 1].state) (env.truncation es[k + 1].state), b = false)
    (hlast : ∀ k (hk : k + 2 = es.length), ∃ c, ∀ b ∈ List.zipWith (· || ·) (env.termination es[k + 1].state) (env.truncation es[k + 1].state), b = c)
    (w : DmEnv S) (hi : w.initialized = true) (hd : w.done = false) (hs : w.curState = some (es.head hne).state) :
    (dmRun env isDone mk rew w (raws.map .step)).2.length = raws.length ∧
    ∀ k (hk : k + 1 < es.length) (hk' : k < (dmRun env isDone mk rew w (raws.map .step)).2.length),
      ∃ ts, (dmRun env isDone mk rew w (raws.map .step)).2[k] = .ok ts ∧ ts.observation = es[k + 1].observation ∧
      ts.reward = some es[k].reward ∧
      (ts.stepType = .LAST ↔ ∀ b ∈ List.zipWith (· || ·) (env.termination es[k + 1].state) (env.truncation es[k + 1].state), b = true) ∧
      ts.stepType ≠ .FIRST := by
  induction es generalizing raws w with
  | nil => exact absurd rfl hne
  | cons e es ih =>
    cases es with
    | nil =>
      obtain rfl : raws = [] := List.eq_nil_of_length_eq_zero (by simpa using hlen)
      exact ⟨rfl, fun k hk => by simp at hk⟩
    | cons e' es =>
      obtain ⟨a, raws, rfl⟩ : ∃ a r, raws = a :: r := by
        cases raws with
        | nil => simp at hlen
        | cons a r => exact ⟨a, r, rfl⟩
      simp only [List.head_cons] at hs
      have h0 := h.step 0 (by simp)
      have hr := h.reward 0 (by simp)
      have ho' := h.observation 1 (by simp)
      simp only [List.getElem_cons_zero, List.getElem_cons_succ, Nat.zero_add] at h0 hr ho'
      obtain ⟨hmk, hrw⟩ := hraw 0 (by simp) (by simp)
      simp only [List.getElem_cons_zero] at hmk hrw
      have hcall : ∃ w' ts, dmStep env mk rew w a = (w', .ok ts) ∧ ts.observation = e'.observation ∧ ts.reward = some e.reward ∧
          (ts.stepType = .LAST ↔ ∀ b ∈ List.zipWith (· || ·) (env.termination e'.state) (env.truncation e'.state), b = true) ∧
          ts.stepType ≠ .FIRST ∧ (es ≠ [] → w'.initialized = true ∧ w'.done = false ∧ w'.curState = some e'.state) := by
        unfold dmStep
        simp only [hi, hd, hs, Bool.not_true, Bool.false_eq_true, if_false, hrw, hr, hmk, h0]
        by_cases hall : (List.zipWith (· || ·) (env.termination e'.state) (env.truncation e'.state)).all id = true
        · rw [if_pos hall]
          have hall' : ∀ b ∈ List.zipWith (· || ·) (env.termination e'.state) (env.truncation e'.state), b = true := by
            intro b hb
            exact List.all_eq_true.1 hall b hb
          refine ⟨_, _, rfl, ho'.symm, rfl, ⟨fun _ => hall', fun _ => rfl⟩, by simp, fun hes => ?_⟩
          exfalso
          have hl : 2 < (e :: e' :: es).length := by
            cases es with
            | nil => exact absurd rfl hes
            | cons _ _ => simp
          obtain ⟨g1, g2⟩ := hrun 0 (by simpa using hl)
          obtain ⟨b, hb⟩ := List.exists_mem_of_ne_nil _ g1
          have hf := g2 b hb
          simp only [Nat.zero_add, List.getElem_cons_succ, List.getElem_cons_zero] at hb
          rw [hall' b hb] at hf
          cases hf
        · rw [if_neg hall]
          have hallf : ∀ b ∈ List.zipWith (· || ·) (env.termination e'.state) (env.truncation e'.state), b = false := by
            cases es with
            | nil =>
              obtain ⟨c, hc⟩ := hlast 0 (by simp)
              simp only [Nat.zero_add, List.getElem_cons_succ, List.getElem_cons_zero] at hc
              cases c with
              | false => exact hc
              | true => exact absurd (List.all_eq_true.2 hc) hall
            | cons x xs =>
              have := (hrun 0 (by simp)).2
              simpa only [Nat.zero_add, List.getElem_cons_succ, List.getElem_cons_zero] using this
          have hany : ¬ (List.zipWith (· || ·) (env.termination e'.state) (env.truncation e'.state)).any id = true := by
            intro hc
            obtain ⟨b, hb, hbt⟩ := List.any_eq_true.1 hc
            rw [hallf b hb] at hbt
            cases hbt
          rw [if_neg hany]
          refine ⟨_, _, rfl, ho'.symm, rfl, ⟨nofun, fun hc => absurd (List.all_eq_true.2 hc) hall⟩, by simp, fun _ => ⟨rfl, rfl, rfl⟩⟩
      obtain ⟨w', ts, hw, t1, t2, t3, t4, t5⟩ := hcall
      have hrunEq : (dmRun env isDone mk rew w ((a :: raws).map .step)).2 = .ok ts :: (dmRun env isDone mk rew w' (raws.map .step)).2 := by
        simp only [List.map_cons, dmRun, dmCall, hw]
      by_cases hes : es = []
      · subst hes
        obtain rfl : raws = [] := List.eq_nil_of_length_eq_zero (by simpa using hlen)
        rw [hrunEq]
        refine ⟨rfl, fun k hk hk' => ?_⟩
        obtain rfl : k = 0 := by simp at hk; omega
        exact ⟨ts, rfl, t1, t2, t3, t4⟩
      · obtain ⟨p1, p2, p3⟩ := t5 hes
        obtain ⟨i1, i2⟩ := ih (by simp) h.tail raws (by simpa using hlen)
          (fun k hk hk' => hraw (k + 1) (by simpa using hk) (by simpa using hk'))
          (fun k hk => hrun (k + 1) (by simpa using hk)) (fun k hk => hlast (k + 1) (by simpa using hk)) w' p1 p2 p3
        rw [hrunEq]
        refine ⟨by simp [i1], fun k hk hk' => ?_⟩
        cases k with
        | zero => exact ⟨ts, rfl, t1, t2, t3, t4⟩
        | succ k => exact i2 k (by simpa using hk) (by simpa using hk')

/-- C183: the same for the DeepMind interface, as long as the scenarios of the batch end together and not before the last recorded action.
The raw actions are any that the wrapper turns into the recorded ones. -/
theorem C183_dm {Raw : Type} {env : Env S A O M R} {isDone : S → Bool} {mk : Raw → Except Err A} {rew : S → Raw → Except Err R}
    {actor : Actor S A X K P C} {split : K → K × K} {params : P} {zerosLike : A → A} {scen : S} {rng : K}
    {n : Nat} {es : List (RolloutEntry S A O M R)} (h : rollout env actor split params zerosLike scen rng n = .ok es)
    (raws : List Raw) (hlen : raws.length + 1 = es.length)
    (hraw : ∀ k (hk : k < raws.length) (hk' : k < es.length), mk raws[k] = .ok es[k].action ∧ ∀ s, rew s raws[k] = env.reward s es[k].action)
    (hnew : ∀ hk : 0 < es.length, isDone es[0].state = false)
    (hrun : ∀ k (hk : k + 2 < es.length),
      List.zipWith (· || ·) (env.termination es[k + 1].state) (env.truncation es[k + 1].state) ≠ [] ∧
      ∀ b ∈ List.zipWith (· || ·) (env.termination es[k + 1].state) (env.truncation es[k + 1].state), b = false)
    (hlast : ∀ k (hk : k + 2 = es.length), ∃ c, ∀ b ∈ List.zipWith (· || ·) (env.termination es[k + 1].state) (env.truncation es[k + 1].state), b = c)
    (w : DmEnv S) (rest : List S) (hw : w.data = scen :: rest) :
    DmAgrees env es (dmRun env isDone mk rew w (.reset :: raws.map .step)).2 := by
  obtain ⟨-, hl, hreset, -⟩ := C14_rollout_spec h
  have hrec := rollout_recorded h
  have hne : es ≠ [] := by intro hc; rw [hc] at hl; simp at hl
  have hpos : 0 < es.length := by omega
  have hhd : es.head hne = es[0] := (List.getElem_zero hpos).symm
  have hres : dmReset (R := R) env isDone w = ({ curState := some es[0].state, initialized := true, data := rest, done := false },
      .ok { stepType := .FIRST, reward := none, discount := none, observation := es[0].observation }) := by
    unfold dmReset
    rw [hw]
    simp only [hreset, hnew hpos, Bool.false_eq_true, if_false, hrec.observation 0 hpos]
  obtain ⟨i1, i2⟩ := dmRun_steps (isDone := isDone) es hne hrec raws hlen hraw hrun hlast
    { curState := some es[0].state, initialized := true, data := rest, done := false } rfl rfl (by rw [hhd])
  have hrunEq : (dmRun env isDone mk rew w (.reset :: raws.map .step)).2 =
      .ok { stepType := .FIRST, reward := none, discount := none, observation := es[0].observation } ::
        (dmRun env isDone mk rew { curState := some es[0].state, initialized := true, data := rest, done := false } (raws.map .step)).2 := by
    simp only [dmRun, dmCall, hres]
  rw [hrunEq]
  exact ⟨by simp [i1, hlen], fun _ => rfl, fun k hk => i2 k hk (by rw [i1]; omega)⟩

/-- The reset reports the metrics of its state. -/
theorem C183_reset_metrics_partial (env : Env S A O M R) (zero : R) (batch : Nat) (scen : S) (ts : BraxTimeStep S O M R)
    (h : braxReset env zero batch scen = .ok ts) : env.metrics ts.state = .ok ts.metrics :=
  ((C17_brax_reset_spec env zero batch scen ts).1 h).2.1

/-- A step reports the metrics of its own state exactly when they equal those of the state it came from: the metrics of the last state of an
episode are not in what the Brax interface returns. -/
theorem C183_step_metrics_exact (env : Env S A O M R) (ts ts' : BraxTimeStep S O M R) (a : A) (h : braxStep env ts a = .ok ts') :
    env.metrics ts'.state = .ok ts'.metrics ↔ env.metrics ts'.state = env.metrics ts.state := by
  rw [((C17_brax_step_spec env ts ts' a).1 h).2.2.1]

end

section
variable {α D M R X K P C : Type} [ScalarOps α] {n T : Nat} [NeZero T]

/-- C183 for the base environment: if the scenario is long enough for the recorded actions, the DeepMind interface shows the run of the
rollout, and marks the last time step LAST exactly when the scenario is used up. -/
theorem C183_dm_base {Raw : Type} {d : DynamicsModel α D n} {cfg : EnvConfig} {metrics : SimState α n T → Except Err M}
    {reward : SimState α n T → (Fin n → Act D) → Except Err R} {mk : Raw → Except Err (Fin n → Act D)}
    {rew : SimState α n T → Raw → Except Err R}
    {actor : Actor (SimState α n T) (Fin n → Act D) X K P C} {split : K → K × K} {params : P} {zerosLike : (Fin n → Act D) → (Fin n → Act D)}
    {scen : SimState α n T} {rng : K} {N : Nat} {es : List (RolloutEntry (SimState α n T) (Fin n → Act D) (SimState α n T) M R)}
    (h : rollout (baseEnv d cfg metrics reward) actor split params zerosLike scen rng N = .ok es) (hT : cfg.initSteps + N ≤ T)
    (raws : List Raw) (hlen : raws.length = N)
    (hraw : ∀ k (hk : k < raws.length) (hk' : k < es.length), mk raws[k] = .ok es[k].action ∧ ∀ s, rew s raws[k] = reward s es[k].action)
    (w : DmEnv (SimState α n T)) (rest : List (SimState α n T)) (hw : w.data = scen :: rest) :
    DmAgrees (baseEnv d cfg metrics reward) es
      (dmRun (baseEnv d cfg metrics reward) SimState.isDone mk rew w (.reset :: raws.map .step)).2 ∧
    ∀ k (hk : k < es.length), ((baseEnv d cfg metrics reward).truncation es[k].state = [decide (T ≤ cfg.initSteps + k)]) := by
  obtain ⟨hN, hl, hreset, hs, -⟩ := C14_rollout_spec h
  have hclock : ∀ k (hk : k < es.length), es[k].state.timestep = (cfg.initSteps : Int) - 1 + k := by
    intro k
    induction k with
    | zero =>
      intro hk
      have := (C01_reset_spec hreset).1
      simpa using this
    | succ k ih =>
      intro hk
      obtain ⟨m, -, e⟩ := step_ok (hs k (by omega))
      rw [e]
      simp only [ih (by omega), Nat.cast_add, Nat.cast_one]
      ring
  have htr : ∀ k (hk : k < es.length), (baseEnv d cfg metrics reward).truncation es[k].state = [decide (T ≤ cfg.initSteps + k)] := by
    intro k hk
    simp only [baseEnv, truncation, SimState.remainingTimesteps, hclock k hk, List.cons.injEq, decide_eq_decide, and_true]
    omega
  refine ⟨C183_dm h raws (by omega) hraw (fun hk => ?_) (fun k hk => ?_) (fun k hk => ?_) w rest hw, htr⟩
  · simp only [SimState.isDone, hclock 0 hk, decide_eq_false_iff_not]
    push_cast
    omega
  · rw [htr]
    simp only [baseEnv, termination, List.zipWith_cons_cons, List.zipWith_nil_right, Bool.false_or, List.mem_singleton, forall_eq,
      decide_eq_false_iff_not]
    exact ⟨by simp, by omega⟩
  · rw [htr]
    exact ⟨decide (T ≤ cfg.initSteps + (k + 1)), fun b hb => by simpa [baseEnv, termination] using hb⟩

/-- A concrete case: the example scenario with three recorded actions, driven through all three interfaces. -/
example : ∃ es, rollout (K := Nat) (P := Unit) (baseEnv stateDynamics exCfg (fun _ => .ok ()) (fun _ _ => .ok (0 : Int)))
      (expertActor stateDynamics (fun s i => (s.objectMetadata i).isSdc)) (fun k => (k, k + 1)) () id exScen 0 3 = .ok es ∧
    (∃ tss, braxTrace (baseEnv stateDynamics exCfg (fun _ => .ok ()) (fun _ _ => .ok (0 : Int))) 0 1 exScen (recordedActions es) = .ok tss ∧
      BraxAgrees es tss) ∧
    DmAgrees (baseEnv stateDynamics exCfg (fun _ => .ok ()) (fun _ _ => .ok (0 : Int))) es
      (dmRun (baseEnv stateDynamics exCfg (fun _ => .ok ()) (fun _ _ => .ok (0 : Int))) SimState.isDone Except.ok (fun _ _ => .ok 0)
        { curState := none, initialized := false, done := false, data := [exScen] } (.reset :: (recordedActions es).map .step)).2 := by
  obtain ⟨es, h⟩ := C14_rollout_succeeds (K := Nat) (P := Unit)
    (baseEnv stateDynamics exCfg (fun _ => .ok ()) (fun _ _ => .ok (0 : Int)))
    (expertActor stateDynamics (fun s i => (s.objectMetadata i).isSdc)) (fun k => (k, k + 1)) () id exScen 0 (n := 3)
    (by decide) ⟨_, rfl⟩ (fun s a => step_exists _ _ s a (by decide)) (fun _ => ⟨_, rfl⟩) (fun _ _ => ⟨_, rfl⟩)
  obtain ⟨-, hl, -⟩ := C14_rollout_spec h
  obtain ⟨tss, h1, h2, -⟩ := C183_brax h 0 1
  refine ⟨es, h, ⟨tss, h1, h2⟩, (C183_dm_base h (by decide) _ (by simp [recordedActions, hl]) (fun k hk hk' => ?_) _ [] rfl).1⟩
  simp [recordedActions]

end

/-- The action that moves the only object one metre away from the origin. -/
def awayAct : Fin 1 → Act (StateRow ℝ) := fun _ => { data := { x := 1, y := 0, yaw := 0, velX := 0, velY := 0 }, valid := true }

/-- The environment with the log divergence as its only metric. -/
noncomputable def divergenceEnv : Env (SimState ℝ 1 3) (Fin 1 → Act (StateRow ℝ)) (SimState ℝ 1 3) (Dict (MetricArr 1)) ℝ :=
  baseEnv stateDynamics { maxNumObjects := 1, initSteps := 1 } (envMetrics builtinMetrics ["log_divergence"]) (fun _ _ => .ok 0)

/-- C183: the expectation that a time step carries the metrics of its own state fails. The object drives one metre away from its log; the
returned time step says that it is where its log is. -/
theorem C183_violated : ¬ BraxMetricsCurrent divergenceEnv 0 1 := by
  intro h
  have hms : ∀ s, divergenceEnv.metrics s = .ok [("log_divergence", .perObject (logDivergenceMetric s))] := fun s => rfl
  have hreset := reset_eq { maxNumObjects := 1, initSteps := 1 } jumpScen
  rw [if_pos rfl, if_pos (by decide)] at hreset
  obtain ⟨s1, hs1⟩ := step_exists stateDynamics { maxNumObjects := 1, initSteps := 1 }
    { jumpScen with timestep := ((1 : Nat) : Int) - 1, simTrajectory := fun i t => if t.val < 1 then jumpScen.logTrajectory i t else invalidPt }
    awayAct (by decide)
  obtain ⟨ts, hts⟩ : ∃ ts, braxReset divergenceEnv 0 1 jumpScen = .ok ts :=
    ⟨_, by unfold braxReset; rw [show divergenceEnv.reset jumpScen = _ from hreset]; rfl⟩
  obtain ⟨q1, -⟩ := (C17_brax_reset_spec _ _ _ _ _).1 hts
  have e0 := Except.ok.inj (q1.symm.trans hreset)
  obtain ⟨ts', hts'⟩ : ∃ ts', braxStep divergenceEnv ts awayAct = .ok ts' :=
    ⟨_, by unfold braxStep; rw [e0, show divergenceEnv.step _ awayAct = _ from hs1]; rfl⟩
  have hm := h jumpScen [awayAct] [ts, ts'] (by
    unfold braxTrace
    simp only [hts, bind, Except.bind, braxTrace.go, hts', pure, Except.pure]) ts' (by simp)
  rw [C183_step_metrics_exact _ _ _ _ hts', hms, hms] at hm
  obtain ⟨p1, -⟩ := (C17_brax_step_spec _ _ _ _).1 hts'
  rw [e0] at p1
  have e1 := Except.ok.inj (p1.symm.trans hs1)
  obtain ⟨m, hmask, e2⟩ := step_ok hs1
  have hv : logDivergenceMetric ts'.state = logDivergenceMetric ts.state := by
    simpa using hm
  have := congrArg MetricResult.value (congrFun hv 0)
  rw [e1, e0, e2] at this
  obtain rfl : (fun i => (jumpScen.objectMetadata i).isSdc) = m := Except.ok.inj hmask
  simp only [logDivergenceMetric] at this
  rw [dynIndex_of_eq (t := (1 : Fin 3)) _ (by simp), dynIndex_of_eq (t := (1 : Fin 3)) _ (by simp), dynIndex_of_eq (t := (0 : Fin 3)) _ (by simp),
    dynIndex_of_eq (t := (0 : Fin 3)) _ (by simp), forward_apply _ _ _ _ _ _ (t := (0 : Fin 3)) (t' := (1 : Fin 3)) (by simp) (by simp)] at this
  simp [updatedPt, newField, stateDynamics, stateUpdate, awayAct, jumpScen, soloMeta, ptAt, hypot] at this

end Waymax
