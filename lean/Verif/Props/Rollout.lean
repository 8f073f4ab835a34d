import Verif.Model.Rollout
import Verif.Props.Episode
/-
C13 - C15: rollouts. C14 and C15 hold for every environment, actor, key-splitting function and number of steps.
-/

namespace Waymax

section
variable {S A O M R X K P C : Type}

/-- Helper: what `scan` returns. -/
theorem scan_spec {Γ Y : Type} {f : Γ → Except Err (Γ × Y)} {n : Nat} {c c' : Γ} {ys : List Y}
    (h : scan f n c = .ok (c', ys)) :
    ys.length = n ∧ ∃ cs : Nat → Γ, cs 0 = c ∧ cs n = c' ∧
      ∀ k (hk : k < ys.length), f (cs k) = .ok (cs (k + 1), ys[k]) := by
  induction n generalizing c ys with
  | zero =>
    simp only [scan, Except.ok.injEq, Prod.mk.injEq] at h
    obtain ⟨rfl, rfl⟩ := h
    exact ⟨rfl, fun _ => c, rfl, rfl, fun k hk => by simp at hk⟩
  | succ n ih =>
    unfold scan at h
    cases hf : f c with
    | error e => simp [hf, bind, Except.bind] at h
    | ok r =>
      obtain ⟨c1, y⟩ := r
      simp only [hf, bind, Except.bind] at h
      cases hs : scan f n c1 with
      | error e => simp [hs] at h
      | ok r2 =>
        obtain ⟨c2, ys2⟩ := r2
        simp only [hs, pure, Except.pure, Except.ok.injEq, Prod.mk.injEq] at h
        obtain ⟨rfl, rfl⟩ := h
        obtain ⟨hl, cs, h0, hn, hk⟩ := ih hs
        refine ⟨by simp [hl], fun k => if k = 0 then c else cs (k - 1), by simp, by simp [hn], ?_⟩
        intro k hk'
        cases k with
        | zero => simp [hf, h0]
        | succ k =>
          simp only [List.length_cons] at hk'
          have := hk k (by omega)
          simpa using this

theorem rolloutStep_ok {env : Env S A O M R} {actor : Actor S A X K P C} {split : K → K × K} {params : P}
    {c c' : RolloutCarry S O X K} {e : RolloutEntry S A O M R}
    (h : rolloutStep env actor split params c = .ok (c', e)) :
    e.state = c.state ∧ e.observation = c.observation ∧
    (actor.selectAction params c.state c.actorState (split c.rng).1).action = e.action ∧
    (actor.selectAction params c.state c.actorState (split c.rng).1).actorState = c'.actorState ∧
    env.step c.state e.action = .ok c'.state ∧ c'.observation = env.observe c'.state ∧ c'.rng = (split c.rng).2 ∧
    env.metrics c.state = .ok e.metrics ∧ env.reward c.state e.action = .ok e.reward := by
  unfold rolloutStep at h
  simp only [bind, Except.bind, pure, Except.pure] at h
  split at h
  · cases h
  · rename_i s' hs
    split at h
    · cases h
    · rename_i m hm
      split at h
      · cases h
      · rename_i r hr
        simp only [Except.ok.injEq, Prod.mk.injEq] at h
        obtain ⟨rfl, rfl⟩ := h
        exact ⟨rfl, rfl, rfl, rfl, hs, rfl, rfl, hm, hr⟩

theorem rollout_ok {env : Env S A O M R} {actor : Actor S A X K P C} {split : K → K × K} {params : P}
    {zerosLike : A → A} {scen : S} {rng : K} {n : Nat} {out : List (RolloutEntry S A O M R)}
    (h : rollout env actor split params zerosLike scen rng n = .ok out) :
    ∃ s0 c ys last y, env.reset scen = .ok s0 ∧
      scan (rolloutStep env actor split params) n
        { state := s0, observation := env.observe s0, rng := (split rng).2, actorState := actor.init (split rng).1 s0 } =
          .ok (c, ys) ∧
      ys.getLast? = some last ∧ y.action = zerosLike last.action ∧ y.state = c.state ∧
      y.observation = c.observation ∧ env.metrics c.state = .ok y.metrics ∧
      env.reward c.state (zerosLike last.action) = .ok y.reward ∧ out = ys ++ [y] := by
  unfold rollout at h
  simp only [bind, Except.bind, pure, Except.pure] at h
  split at h
  · cases h
  · rename_i s0 hs0
    split at h
    · cases h
    · rename_i r hr
      obtain ⟨c, ys⟩ := r
      simp only at h
      split at h
      · cases h
      · rename_i last hlast
        split at h
        · cases h
        · rename_i m hm
          split at h
          · cases h
          · rename_i r hr2
            simp only [Except.ok.injEq] at h
            exact ⟨s0, c, ys, last, _, hs0, hr, hlast, rfl, rfl, rfl, hm, hr2, h.symm⟩

/-- The key of rollout step `k`: the second half of repeatedly split keys. -/
def rolloutKey (split : K → K × K) (rng : K) : Nat → K
  | 0 => (split rng).2
  | k + 1 => (split (rolloutKey split rng k)).2

/-! ### C14: a rollout is the iteration of env.step -/

/-- A successful rollout of `n` steps (so `n ≥ 1`) has `n + 1` entries; the first state is the reset scenario; each state is the
previous one stepped with the recorded action; every entry carries the observation, metrics and reward of its own state and
action; the recorded actions are those the actor selects, with its own state threaded through and a fresh key at every step;
the last action is padding. -/
theorem C14_rollout_spec {env : Env S A O M R} {actor : Actor S A X K P C} {split : K → K × K} {params : P}
    {zerosLike : A → A} {scen : S} {rng : K} {n : Nat} {out : List (RolloutEntry S A O M R)}
    (h : rollout env actor split params zerosLike scen rng n = .ok out) :
    1 ≤ n ∧ ∃ hlen : out.length = n + 1,
    env.reset scen = .ok out[0].state ∧
    (∀ k (_ : k < n), env.step out[k].state out[k].action = .ok out[k + 1].state) ∧
    (∀ k (_ : k ≤ n), out[k].observation = env.observe out[k].state ∧
      env.metrics out[k].state = .ok out[k].metrics ∧
      env.reward out[k].state out[k].action = .ok out[k].reward) ∧
    (∃ xs : Nat → X, xs 0 = actor.init (split rng).1 out[0].state ∧
      ∀ k (_ : k < n),
        (actor.selectAction params out[k].state (xs k) (split (rolloutKey split rng k)).1).action = out[k].action ∧
        (actor.selectAction params out[k].state (xs k) (split (rolloutKey split rng k)).1).actorState = xs (k + 1)) ∧
    out[n].action = zerosLike out[n - 1].action := by
  obtain ⟨s0, c, ys, last, y, hreset, hscan, hlast, hy1, hy2, hy3, hm, hr, rfl⟩ := rollout_ok h
  obtain ⟨hl, cs, h0, hn, hstep⟩ := scan_spec hscan
  have hpos : 1 ≤ n := by
    cases n with
    | zero => simp at hl; subst hl; simp at hlast
    | succ n => omega
  have hst : ∀ k (hk : k < n), (ys[k]'(by omega)).state = (cs k).state := fun k hk =>
    (rolloutStep_ok (hstep k (by omega))).1
  have hout : ∀ k (hk : k < n), (ys ++ [y])[k]'(by simp; omega) = ys[k]'(by omega) := fun k hk => by
    rw [List.getElem_append_left]
  have houtn : (ys ++ [y])[n]'(by simp; omega) = y := by
    rw [List.getElem_append_right (by omega)]; simp [hl]
  have hstate : ∀ k (hk : k ≤ n), ((ys ++ [y])[k]'(by simp; omega)).state = (cs k).state := by
    intro k hk
    by_cases hkn : k < n
    · rw [hout k hkn, hst k hkn]
    · have : k = n := by omega
      subst this; rw [houtn, hy2, hn]
  have hobs : ∀ k, k ≤ n → (cs k).observation = env.observe (cs k).state := by
    intro k hk
    cases k with
    | zero => rw [h0]
    | succ k => exact (rolloutStep_ok (hstep k (by omega))).2.2.2.2.2.1
  have hkey : ∀ k, k ≤ n → (cs k).rng = rolloutKey split rng k := by
    intro k
    induction k with
    | zero => intro _; rw [h0]; rfl
    | succ k ih =>
      intro hk
      rw [(rolloutStep_ok (hstep k (by omega))).2.2.2.2.2.2.1, ih (by omega)]; rfl
  refine ⟨hpos, by simp [hl], ?_, ?_, ?_, ?_, ?_⟩
  · rw [hstate 0 (by omega), h0]; exact hreset
  · intro k hk
    rw [hstate k (by omega), hstate (k + 1) (by omega), hout k hk]
    exact (rolloutStep_ok (hstep k (by omega))).2.2.2.2.1
  · intro k hk
    rw [hstate k hk]
    by_cases hkn : k < n
    · rw [hout k hkn]
      have := rolloutStep_ok (hstep k (by omega))
      exact ⟨this.2.1.trans (hobs k hk), this.2.2.2.2.2.2.2.1, this.2.2.2.2.2.2.2.2⟩
    · have : k = n := by omega
      subst this
      rw [houtn, hn, hy3, hy1]
      exact ⟨by rw [← hn]; exact hobs _ (by omega), hm, hr⟩
  · refine ⟨fun k => (cs k).actorState, ?_, ?_⟩
    · rw [hstate 0 (by omega)]
      simp only [h0]
    · intro k hk
      rw [hstate k (by omega), hout k hk, ← hkey k (by omega)]
      have := rolloutStep_ok (hstep k (by omega))
      exact ⟨this.2.2.1, this.2.2.2.1⟩
  · rw [houtn, hy1, hout (n - 1) (by omega)]
    rw [List.getLast?_eq_getElem?, hl] at hlast
    have := List.getElem?_eq_some_iff.1 hlast
    obtain ⟨_, hh⟩ := this
    rw [hh]

/-- If none of the environment's functions raises, every rollout with at least one step succeeds. -/
theorem C14_rollout_succeeds (env : Env S A O M R) (actor : Actor S A X K P C) (split : K → K × K) (params : P)
    (zerosLike : A → A) (scen : S) (rng : K) {n : Nat} (hn : 1 ≤ n)
    (hr : ∃ s, env.reset scen = .ok s) (hs : ∀ s a, ∃ s', env.step s a = .ok s')
    (hm : ∀ s, ∃ m, env.metrics s = .ok m) (hrw : ∀ s a, ∃ r, env.reward s a = .ok r) :
    ∃ out, rollout env actor split params zerosLike scen rng n = .ok out := by
  have hstep : ∀ c, ∃ r, rolloutStep env actor split params c = .ok r := by
    intro c
    obtain ⟨s', h1⟩ := hs c.state (actor.selectAction params c.state c.actorState (split c.rng).1).action
    obtain ⟨m, h2⟩ := hm c.state
    obtain ⟨r, h3⟩ := hrw c.state (actor.selectAction params c.state c.actorState (split c.rng).1).action
    exact ⟨_, by unfold rolloutStep; simp only [h1, h2, h3, bind, Except.bind]; rfl⟩
  have hscan : ∀ n c, ∃ c' ys, scan (rolloutStep env actor split params) n c = .ok (c', ys) ∧ ys.length = n := by
    intro n
    induction n with
    | zero => exact fun c => ⟨c, [], rfl, rfl⟩
    | succ n ih =>
      intro c
      obtain ⟨⟨c1, y⟩, h1⟩ := hstep c
      obtain ⟨c2, ys, h2, hl⟩ := ih c1
      exact ⟨c2, y :: ys, by unfold scan; simp [h1, h2, bind, Except.bind, pure, Except.pure], by simp [hl]⟩
  obtain ⟨s0, h0⟩ := hr
  obtain ⟨c', ys, h1, hl⟩ := hscan n
    { state := s0, observation := env.observe s0, rng := (split rng).2, actorState := actor.init (split rng).1 s0 }
  have hne : ys ≠ [] := by intro hh; subst hh; simp at hl; omega
  obtain ⟨m, hm'⟩ := hm c'.state
  obtain ⟨r, hr'⟩ := hrw c'.state (zerosLike (ys.getLast hne).action)
  have hlast : ys.getLast? = some (ys.getLast hne) := List.getLast?_eq_some_getLast hne
  exact ⟨_, by
    unfold rollout
    simp only [h0, h1, bind, Except.bind, hlast, hm', hr']
    rfl⟩

/-! ### C15: rollouts are prefix-stable -/

theorem scan_prefix {Γ Y : Type} {f : Γ → Except Err (Γ × Y)} {n m : Nat} (hnm : n ≤ m) {c c₁ c₂ : Γ} {ys zs : List Y}
    (h₁ : scan f n c = .ok (c₁, ys)) (h₂ : scan f m c = .ok (c₂, zs)) :
    ys = zs.take n ∧ ∀ (_ : n < m), ∃ e, f c₁ = .ok e ∧ zs[n]? = some e.2 := by
  induction n generalizing m c ys zs with
  | zero =>
    simp only [scan, Except.ok.injEq, Prod.mk.injEq] at h₁
    obtain ⟨rfl, rfl⟩ := h₁
    refine ⟨by simp, ?_⟩
    intro hm
    obtain ⟨hl, cs, h0, -, hst⟩ := scan_spec h₂
    have := hst 0 (by omega)
    rw [h0] at this
    exact ⟨_, this, by simp⟩
  | succ n ih =>
    cases m with
    | zero => omega
    | succ m =>
      unfold scan at h₁ h₂
      cases hf : f c with
      | error e => simp [hf, bind, Except.bind] at h₁
      | ok r =>
        obtain ⟨c', y⟩ := r
        simp only [hf, bind, Except.bind] at h₁ h₂
        cases hs : scan f n c' with
        | error e => simp [hs] at h₁
        | ok r1 =>
          cases hs2 : scan f m c' with
          | error e => simp [hs2] at h₂
          | ok r2 =>
            obtain ⟨d1, ys1⟩ := r1
            obtain ⟨d2, ys2⟩ := r2
            simp only [hs, hs2, pure, Except.pure, Except.ok.injEq, Prod.mk.injEq] at h₁ h₂
            obtain ⟨rfl, rfl⟩ := h₁
            obtain ⟨rfl, rfl⟩ := h₂
            obtain ⟨ih1, ih2⟩ := ih (by omega) hs hs2
            refine ⟨by simp [ih1], ?_⟩
            intro hn
            obtain ⟨e, he1, he2⟩ := ih2 (by omega)
            exact ⟨e, he1, by simpa using he2⟩

/-- Asking for more steps changes neither the first `n` entries nor the `n`-th state, observation and metrics. -/
theorem C15_rollout_prefix {env : Env S A O M R} {actor : Actor S A X K P C} {split : K → K × K} {params : P}
    {zerosLike : A → A} {scen : S} {rng : K} {n m : Nat} (hnm : n ≤ m) {out out' : List (RolloutEntry S A O M R)}
    (h : rollout env actor split params zerosLike scen rng n = .ok out)
    (h' : rollout env actor split params zerosLike scen rng m = .ok out') :
    out.take n = out'.take n ∧
    (out[n]?.map RolloutEntry.state = out'[n]?.map RolloutEntry.state) ∧
    (out[n]?.map RolloutEntry.observation = out'[n]?.map RolloutEntry.observation) ∧
    (out[n]?.map RolloutEntry.metrics = out'[n]?.map RolloutEntry.metrics) := by
  obtain ⟨s0, c, ys, last, y, hreset, hscan, hlast, hy1, hy2, hy3, hm, hr, rfl⟩ := rollout_ok h
  obtain ⟨s0', c', zs, last', z, hreset', hscan', hlast', hz1, hz2, hz3, hm', hr', rfl⟩ := rollout_ok h'
  have : s0' = s0 := by rw [hreset] at hreset'; exact (Except.ok.inj hreset').symm
  subst this
  have hl := (scan_spec hscan).1
  have hl' := (scan_spec hscan').1
  obtain ⟨hpre, hnext⟩ := scan_prefix hnm hscan hscan'
  have hy : (ys ++ [y])[n]? = some y := by
    rw [List.getElem?_append_right (by omega)]; simp [hl]
  refine ⟨?_, ?_⟩
  · rw [List.take_append_of_le_length (by omega), List.take_append_of_le_length (by omega), ← hpre]
    rw [List.take_of_length_le (by omega)]
  · rw [hy]
    by_cases hn : n < m
    · obtain ⟨⟨c2, e⟩, he, hz⟩ := hnext hn
      have hzz : (zs ++ [z])[n]? = some e := by rw [List.getElem?_append_left (by omega)]; exact hz
      rw [hzz]
      have := rolloutStep_ok he
      simp only [Option.map_some, Option.some.injEq]
      refine ⟨hy2.trans this.1.symm, hy3.trans this.2.1.symm, ?_⟩
      have h3 := this.2.2.2.2.2.2.2.1
      rw [hm] at h3; exact Except.ok.inj h3
    · have : n = m := by omega
      subst this
      have hzz : (zs ++ [z])[n]? = some z := by
        rw [List.getElem?_append_right (by omega)]; simp [hl']
      rw [hzz]
      rw [hscan] at hscan'
      simp only [Except.ok.injEq, Prod.mk.injEq] at hscan'
      obtain ⟨rfl, rfl⟩ := hscan'
      simp only [Option.map_some, Option.some.injEq]
      refine ⟨hy2.trans hz2.symm, hy3.trans hz3.symm, ?_⟩
      rw [hm] at hm'; exact Except.ok.inj hm'

end

/-! ### C13: expert actions reproduce the log -/

section
variable {α M R K P : Type} [ScalarOps α] {n T : Nat} [NeZero T]

omit [ScalarOps α] in
theorem expert_update (s : SimState α n T) (i : Fin n) :
    stateUpdate (inferExpertAction s stateDynamics i) =
      { x := (dynIndex (s.logTrajectory i) (s.timestep + 1)).x
        y := (dynIndex (s.logTrajectory i) (s.timestep + 1)).y
        yaw := (dynIndex (s.logTrajectory i) (s.timestep + 1)).yaw
        velX := (dynIndex (s.logTrajectory i) (s.timestep + 1)).velX
        velY := (dynIndex (s.logTrajectory i) (s.timestep + 1)).velY
        valid := (dynIndex (s.logTrajectory i) (s.timestep + 1)).valid } := rfl

/-- Rolling out the expert with `StateDynamics` in `BaseEnvironment`, for any set of controlled objects, any metrics and
rewards: at every entry of the rollout, every simulated step up to the current one has the logged x, y, yaw, velocities and
time stamp, for every object. -/
theorem C13_expert_rollout_reproduces_log {cfg : EnvConfig} {metrics : SimState α n T → Except Err M}
    {reward : SimState α n T → (Fin n → Act (StateRow α)) → Except Err R}
    {mask : SimState α n T → Fin n → Bool} {split : K → K × K} {params : P}
    {zerosLike : (Fin n → Act (StateRow α)) → (Fin n → Act (StateRow α))} {scen : SimState α n T} {rng : K} {N : Nat}
    {out : List (RolloutEntry (SimState α n T) (Fin n → Act (StateRow α)) (SimState α n T) M R)}
    (h : rollout (baseEnv stateDynamics cfg metrics reward) (expertActor stateDynamics mask) split params zerosLike
      scen rng N = .ok out)
    (hw : 1 ≤ cfg.initSteps) (hfit : cfg.initSteps + N ≤ T)
    (k : Nat) (hk : k < out.length) (i : Fin n) (t : Fin T) (ht : (t : Int) ≤ out[k].state.timestep) :
    let p := out[k].state.simTrajectory i t
    let l := scen.logTrajectory i t
    p.x = l.x ∧ p.y = l.y ∧ p.yaw = l.yaw ∧ p.velX = l.velX ∧ p.velY = l.velY ∧
      p.timestampMicros = l.timestampMicros := by
  obtain ⟨hN, hlen, hreset, hstep, -, ⟨xs, -, hact⟩, -⟩ := C14_rollout_spec h
  have hact' : ∀ j (hj : j < N), out[j].action = inferExpertAction out[j].state stateDynamics := fun j hj =>
    ((hact j hj).1).symm
  -- every entry is an episode whose actions are expert actions
  have key : ∀ j (hj : j ≤ N), out[j].state.logTrajectory = scen.logTrajectory ∧
      out[j].state.timestep = (cfg.initSteps : Int) - 1 + j ∧
      ∀ (t : Fin T), (t : Int) ≤ out[j].state.timestep →
        let p := out[j].state.simTrajectory i t
        let l := scen.logTrajectory i t
        p.x = l.x ∧ p.y = l.y ∧ p.yaw = l.yaw ∧ p.velX = l.velX ∧ p.velY = l.velY ∧
          p.timestampMicros = l.timestampMicros := by
    intro j
    induction j with
    | zero =>
      intro _
      have hr := C01_reset_spec hreset
      refine ⟨hr.2.2.2.log, by simpa using hr.1, ?_⟩
      intro t ht
      have : t.val < cfg.initSteps := by rw [hr.1] at ht; omega
      simp only [hr.2.1 i t this]
      exact ⟨trivial, trivial, trivial, trivial, trivial, trivial⟩
    | succ j ih =>
      intro hj
      obtain ⟨hlog, hts, ih⟩ := ih (by omega)
      have hst : step stateDynamics cfg out[j].state out[j].action = .ok out[j + 1].state := hstep j (by omega)
      obtain ⟨m, hm, heq⟩ := step_ok hst
      rw [heq]
      refine ⟨hlog, by simp only [hts]; omega, ?_⟩
      intro t ht
      simp only at ht ⊢
      have h1 : ((⟨cfg.initSteps - 1 + j, by omega⟩ : Fin T) : Int) = out[j].state.timestep := by
        rw [hts]; simp only; omega
      have h2 : ((⟨cfg.initSteps + j, by omega⟩ : Fin T) : Int) = out[j].state.timestep + 1 := by
        rw [hts]; simp only; omega
      rw [forward_apply stateDynamics _ _ _ m _ h1 h2]
      by_cases htt : t = ⟨cfg.initSteps + j, by omega⟩
      · rw [if_pos htt, hact' j (by omega)]
        have hu : ∀ cur : Fin n → Pt α, stateDynamics.computeUpdate (inferExpertAction out[j].state stateDynamics) cur i
          = stateUpdate (inferExpertAction out[j].state stateDynamics i) := fun _ => rfl
        rw [hu, expert_update, dynIndex_of_eq _ h2, hlog, htt]
        cases m i <;> simp [updatedPt, newField]
      · rw [if_neg htt]
        apply ih
        have : t.val ≠ cfg.initSteps + j := fun hh => htt (Fin.ext hh)
        omega
  exact (key k (by omega)).2.2 t ht

/-- A concrete rollout meeting the hypotheses: the example scenario, all modelled objects controlled, three steps. -/
example : ∃ out, rollout (K := Nat) (P := Unit)
    (baseEnv stateDynamics exCfg (fun _ => .ok ()) (fun _ _ => .ok (0 : Int)))
    (expertActor stateDynamics (fun s i => (s.objectMetadata i).isSdc)) (fun k => (k, k + 1)) () id exScen 0 3 = .ok out :=
  C14_rollout_succeeds _ _ _ _ _ _ _ (by decide) ⟨_, rfl⟩
    (fun s a => step_exists _ _ s a (by decide)) (fun _ => ⟨_, rfl⟩) (fun _ _ => ⟨_, rfl⟩)

/-- Two rollouts of different lengths, as in C15. -/
example : ∃ out out', rollout (K := Nat) (P := Unit)
      (baseEnv stateDynamics exCfg (fun _ => .ok ()) (fun _ _ => .ok (0 : Int)))
      (expertActor stateDynamics (fun s i => (s.objectMetadata i).isSdc)) (fun k => (k, k + 1)) () id exScen 0 1 = .ok out ∧
    rollout (K := Nat) (P := Unit)
      (baseEnv stateDynamics exCfg (fun _ => .ok ()) (fun _ _ => .ok (0 : Int)))
      (expertActor stateDynamics (fun s i => (s.objectMetadata i).isSdc)) (fun k => (k, k + 1)) () id exScen 0 3 = .ok out' := by
  obtain ⟨o, h⟩ := C14_rollout_succeeds (K := Nat) (P := Unit)
    (baseEnv stateDynamics exCfg (fun _ => .ok ()) (fun _ _ => .ok (0 : Int)))
    (expertActor stateDynamics (fun s i => (s.objectMetadata i).isSdc)) (fun k => (k, k + 1)) () id exScen 0 (n := 1)
    (by decide) ⟨_, rfl⟩ (fun s a => step_exists _ _ s a (by decide)) (fun _ => ⟨_, rfl⟩) (fun _ _ => ⟨_, rfl⟩)
  obtain ⟨o', h'⟩ := C14_rollout_succeeds (K := Nat) (P := Unit)
    (baseEnv stateDynamics exCfg (fun _ => .ok ()) (fun _ _ => .ok (0 : Int)))
    (expertActor stateDynamics (fun s i => (s.objectMetadata i).isSdc)) (fun k => (k, k + 1)) () id exScen 0 (n := 3)
    (by decide) ⟨_, rfl⟩ (fun s a => step_exists _ _ s a (by decide)) (fun _ => ⟨_, rfl⟩) (fun _ _ => ⟨_, rfl⟩)
  exact ⟨o, o', h, h'⟩

end

end Waymax
