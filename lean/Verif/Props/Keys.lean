import Verif.Spec.Keys
import Verif.Model.Waypoint
import Verif.Model.BatchPlanning
import Verif.Props.Rollout
import Verif.Props.Planning
import Verif.Props.PlanningGaps
/-
C157: which random keys reach whom.
-/

namespace Waymax

/-! ### The keys of a rollout -/

section
variable {S A O M R X K P C : Type}

theorem rolloutKey_age {split : K → K × K} {age : K → Nat} (h : ∀ k, age k < age (split k).1 ∧ age k < age (split k).2) (rng : K) :
    ∀ k, age rng + k < age (rolloutKey split rng k)
  | 0 => by simpa [rolloutKey] using (h rng).2
  | k + 1 => by
    have h1 := rolloutKey_age h rng k
    have h2 := (h (rolloutKey split rng k)).2
    simp only [rolloutKey]
    omega

theorem rolloutKey_mono {split : K → K × K} {age : K → Nat} (h : ∀ k, age k < age (split k).1 ∧ age k < age (split k).2) (rng : K)
    {i j : Nat} (hij : i < j) : age (rolloutKey split rng i) < age (rolloutKey split rng j) := by
  induction j with
  | zero => omega
  | succ j ih =>
    have h2 := (h (rolloutKey split rng j)).2
    simp only [rolloutKey]
    rcases Nat.lt_succ_iff_lt_or_eq.1 hij with h1 | h1
    · have := ih h1; omega
    · subst h1; exact h2

/-- In a rollout of `n` steps the actor is handed `n + 1` random keys, one to start with and one for every action. With an ideal key
generator no two of them are the same, and none of them is the key the rollout was given. -/
theorem C157_fresh_keys {env : Env S A O M R} {actor : Actor S A X K P C} {split : K → K × K} (hs : IdealSplit split) {params : P}
    {zerosLike : A → A} {scen : S} {rng : K} {n : Nat} {out : List (RolloutEntry S A O M R)}
    (h : rollout env actor split params zerosLike scen rng n = .ok out) :
    ∃ (key : Nat → K) (mem : Nat → X),
      (∃ hlen : out.length = n + 1,
        mem 0 = actor.init (key 0) out[0].state ∧
        ∀ k (_ : k < n), actor.selectAction params out[k].state (mem k) (key (k + 1)) =
          { actorState := mem (k + 1), action := out[k].action
            isControlled := (actor.selectAction params out[k].state (mem k) (key (k + 1))).isControlled }) ∧
      (∀ i j, key i = key j → i = j) ∧ ∀ i, key i ≠ rng := by
  obtain ⟨-, hlen, -, -, -, ⟨xs, hx0, hx⟩, -⟩ := C14_rollout_spec h
  obtain ⟨age, hage⟩ := hs.age
  refine ⟨fun i => match i with
    | 0 => (split rng).1
    | i + 1 => (split (rolloutKey split rng i)).1, xs, ⟨hlen, hx0, ?_⟩, ?_, ?_⟩
  · intro k hk
    obtain ⟨h1, h2⟩ := hx k hk
    rw [← h1, ← h2]
  · intro i j hij
    rcases i with _ | i <;> rcases j with _ | j
    · rfl
    · have h1 := rolloutKey_age hage rng j
      have h2 := hs.first _ _ hij
      rw [← h2] at h1; omega
    · have h1 := rolloutKey_age hage rng i
      have h2 := hs.first _ _ hij
      rw [h2] at h1; omega
    · have h2 := hs.first _ _ hij
      by_contra hne
      rcases Nat.lt_or_gt_of_ne (fun hh : i = j => hne (congrArg (· + 1) hh)) with h3 | h3
      · have := rolloutKey_mono hage rng h3; rw [h2] at this; omega
      · have := rolloutKey_mono hage rng h3; rw [h2] at this; omega
  · intro i hi
    rcases i with _ | i
    · have := (hage rng).1; simp only at hi; rw [hi] at this; omega
    · have h1 := rolloutKey_age hage rng i
      have h2 := (hage (rolloutKey split rng i)).1
      simp only at hi; rw [hi] at h2; omega

/-- The keys handed to the actor are not the ones the rollout goes on splitting: an actor that splits its own keys further does not
run into keys of the rollout. -/
theorem C157_keys_apart {split : K → K × K} (hs : IdealSplit split) (rng : K) (i j : Nat) :
    (split (rolloutKey split rng i)).1 ≠ rolloutKey split rng j ∧ (split rng).1 ≠ rolloutKey split rng j := by
  have : ∃ k, rolloutKey split rng j = (split k).2 := by
    cases j with
    | zero => exact ⟨rng, rfl⟩
    | succ j => exact ⟨rolloutKey split rng j, rfl⟩
  obtain ⟨k, hk⟩ := this
  rw [hk]
  exact ⟨hs.apart _ _, hs.apart _ _⟩

/-- Such a generator exists: keys are lists of left and right turns. -/
theorem turns_ideal : IdealSplit (K := List Bool) fun k => (false :: k, true :: k) where
  first := fun a b h => by simpa using h
  apart := fun a b h => by simp at h
  age := ⟨List.length, fun k => by simp⟩

/-! ### Actors that use no random numbers -/

/-- Two scans whose step functions agree up to a part of the carry. -/
theorem scan_sim {Γ Γ' Y : Type} {f : Γ → Except Err (Γ × Y)} {g : Γ' → Except Err (Γ' × Y)} (rel : Γ → Γ' → Prop)
    (h : ∀ c d, rel c d → (∃ e, f c = .error e ∧ g d = .error e) ∨
      ∃ c' d' y, f c = .ok (c', y) ∧ g d = .ok (d', y) ∧ rel c' d') (n : Nat) :
    ∀ c d, rel c d → (∃ e, scan f n c = .error e ∧ scan g n d = .error e) ∨
      ∃ c' d' ys, scan f n c = .ok (c', ys) ∧ scan g n d = .ok (d', ys) ∧ rel c' d' := by
  induction n with
  | zero => exact fun c d hr => .inr ⟨c, d, [], rfl, rfl, hr⟩
  | succ n ih =>
    intro c d hr
    rcases h c d hr with ⟨e, h1, h2⟩ | ⟨c', d', y, h1, h2, hr'⟩
    · exact .inl ⟨e, by simp [scan, h1, bind, Except.bind], by simp [scan, h2, bind, Except.bind]⟩
    · rcases ih c' d' hr' with ⟨e, h3, h4⟩ | ⟨c2, d2, ys, h3, h4, hr2⟩
      · exact .inl ⟨e, by simp [scan, h1, h3, bind, Except.bind], by simp [scan, h2, h4, bind, Except.bind]⟩
      · exact .inr ⟨c2, d2, y :: ys, by simp [scan, h1, h3, bind, Except.bind, pure, Except.pure],
          by simp [scan, h2, h4, bind, Except.bind, pure, Except.pure], hr2⟩

/-- The rollout of an actor that uses no random numbers is the same for every key and for every way of splitting keys. -/
theorem C157_rollout_key_free {actor : Actor S A X K P C} (hf : KeyFree actor) (env : Env S A O M R) (split split' : K → K × K)
    (params : P) (zerosLike : A → A) (scen : S) (rng rng' : K) (n : Nat) :
    rollout env actor split params zerosLike scen rng n = rollout env actor split' params zerosLike scen rng' n := by
  unfold rollout
  cases env.reset scen with
  | error e => rfl
  | ok s0 =>
    simp only [bind, Except.bind]
    rcases scan_sim (f := rolloutStep env actor split params) (g := rolloutStep env actor split' params)
      (fun c d => c.state = d.state ∧ c.observation = d.observation ∧ c.actorState = d.actorState)
      (by
        rintro ⟨s, o, k, x⟩ ⟨s', o', k', x'⟩ ⟨rfl, rfl, rfl⟩
        simp only [rolloutStep]
        rw [hf.2 params s x (split k).1 (split' k').1]
        cases env.step s (actor.selectAction params s x (split' k').1).action with
        | error e => exact .inl ⟨e, rfl, rfl⟩
        | ok s1 =>
          cases env.metrics s with
          | error e => exact .inl ⟨e, rfl, rfl⟩
          | ok m =>
            cases env.reward s (actor.selectAction params s x (split' k').1).action with
            | error e => exact .inl ⟨e, rfl, rfl⟩
            | ok r => exact .inr ⟨_, _, _, rfl, rfl, rfl, rfl, rfl⟩) n
      { state := s0, observation := env.observe s0, rng := (split rng).2, actorState := actor.init (split rng).1 s0 }
      { state := s0, observation := env.observe s0, rng := (split' rng').2, actorState := actor.init (split' rng').1 s0 }
      ⟨rfl, rfl, hf.1 _ _ _⟩ with ⟨e, h1, h2⟩ | ⟨c, d, ys, h1, h2, hs, ho, -⟩
    · rw [h1, h2]
    · rw [h1, h2]
      simp only [hs, ho]

end

/-! ### The planning environment -/

section
variable {D X K P : Type} {n T : Nat} [NeZero T]

omit [NeZero T] in
theorem planReset_reset (E : PlanEnv D X K P n T) (split : K → Nat → List K) (scen : SimState ℝ n T) (rng : Option K) :
    planReset E split scen rng = (reset E.cfg scen).map fun sim =>
      { sim := sim, actorStates := ((planKeys split rng E.actors.length).zip E.actors).map
          fun x => x.2.init x.1 { sim := sim, actorStates := [] } } := by
  unfold planReset reset
  split_ifs
  · cases updateStateByLog _ _ <;> rfl
  · rfl

/-- Sim agents that use no random numbers: the environment behaves the same with every key and without any, at reset and in every
step. -/
theorem C157_planning_key_free {E : PlanEnv D X K P n T} (hf : ∀ a ∈ E.actors, KeyFree a) {split split' : K → Nat → List K}
    (hsplit : ∀ k m, (split k m).length = m) (hsplit' : ∀ k m, (split' k m).length = m) (scen : SimState ℝ n T)
    (s : PlanState X n T) (a : Act D) (rng rng' : Option K) :
    planReset E split scen rng = planReset E split' scen rng' ∧ planStep E split s a rng = planStep E split' s a rng' := by
  have hlen : (planKeys split rng E.actors.length).length = E.actors.length := by cases rng <;> simp [planKeys, hsplit]
  have hlen' : (planKeys split' rng' E.actors.length).length = E.actors.length := by cases rng' <;> simp [planKeys, hsplit']
  generalize hk : planKeys split rng E.actors.length = ks at hlen
  generalize hk' : planKeys split' rng' E.actors.length = ks' at hlen'
  constructor
  · rw [planReset_reset, planReset_reset, hk, hk']
    cases reset E.cfg scen with
    | error e => rfl
    | ok sim =>
      simp only [Except.map, Except.ok.injEq, PlanState.mk.injEq, true_and]
      apply List.ext_getElem
      · simp [hlen, hlen']
      · intro j h1 h2
        simp only [List.getElem_map, List.getElem_zip]
        exact (hf _ (List.getElem_mem _)).1 _ _ _
  · rw [planStep_eq, planStep_eq]
    have : loopOutputs E split s rng = loopOutputs E split' s rng' := by
      unfold loopOutputs
      rw [hk, hk']
      apply List.ext_getElem
      · simp [hlen, hlen']
      · intro j h1 h2
        simp only [List.getElem_map, List.getElem_zip]
        exact (hf _ (List.getElem_mem _)).2 _ _ _ _ _
    rw [this]

/-- None of the built-in actors uses random numbers: the expert, the object frozen in place, the follower of the logged path at
constant speed and the intelligent driver. -/
theorem C157_builtin_actors (d : DynamicsModel ℝ D n) (mask : SimState ℝ n T → Fin n → Bool) (v : ℝ) (q : IdmParams) :
    KeyFree (expertActor (T := T) (K := K) (P := P) d mask) ∧
    KeyFree (simAgent (K := K) (P := P) mask frozenUpdate) ∧
    KeyFree (constantSpeedPolicy (K := K) (P := P) (n := n) (T := T) v) ∧
    KeyFree (idmAgent (K := K) (P' := P) q mask) :=
  ⟨⟨fun _ _ _ => rfl, fun _ _ _ _ _ => rfl⟩, ⟨fun _ _ _ => rfl, fun _ _ _ _ _ => rfl⟩, ⟨fun _ _ _ => rfl, fun _ _ _ _ _ => rfl⟩,
    ⟨fun _ _ _ => rfl, fun _ _ _ _ _ => rfl⟩⟩

/-! ### Sim agents in a rollout -/

/-- The expectation: in a rollout started with a key, every sim agent of the planning environment is started with some random key. -/
def AgentsGetKeys (X K P Y : Type) (n T : Nat) [NeZero T] : Prop :=
  ∀ (E : PlanEnv (StateRow ℝ) X K P n T) (splitEnv : K → Nat → List K) (reg : Dict (Metric n T)) (names : List String) (cr : Bool)
    (actor : Actor (PlanState X n T) (Act (StateRow ℝ)) Y K P (Fin n → Bool)) (split : K → K × K) (params : P)
    (z : Act (StateRow ℝ) → Act (StateRow ℝ)) (scen : PlanState X n T) (rng : K) (N : Nat)
    (out : List (RolloutEntry (PlanState X n T) (Act (StateRow ℝ)) (PlanState X n T) (Dict (MetricArr n)) ℝ)),
    rollout (planEnv E splitEnv reg names cr) actor split params z scen rng N = .ok out →
    ∃ first, out[0]? = some first ∧ ∀ i (hi : i < E.actors.length), ∃ key : K,
      first.state.actorStates[i]? = some (E.actors[i].init (some key) { sim := first.state.sim, actorStates := [] })

/-- What happens instead: whatever key the rollout is given, every sim agent is started without a key and picks all its actions without
a key. -/
theorem C157_agents_partial {Y J Q C : Type} {E : PlanEnv D X K P n T} {splitEnv : K → Nat → List K} {reg : Dict (Metric n T)}
    {names : List String} {cr : Bool} {actor : Actor (PlanState X n T) (Act D) Y J Q C} {split : J → J × J} {params : Q}
    {z : Act D → Act D} {scen : PlanState X n T} {rng : J} {N : Nat}
    {out : List (RolloutEntry (PlanState X n T) (Act D) (PlanState X n T) (Dict (MetricArr n)) ℝ)}
    (h : rollout (planEnv E splitEnv reg names cr) actor split params z scen rng N = .ok out) :
    ∃ hlen : out.length = N + 1,
    out[0].state.actorStates =
      E.actors.map (fun a => a.init none { sim := out[0].state.sim, actorStates := [] }) ∧
    ∀ k (_ : k < N) i (hi : i < E.actors.length) (x : X) (p : P), out[k].state.actorStates[i]? = some x → E.params[i]? = some p →
      out[k + 1].state.actorStates[i]? = some (E.actors[i].selectAction p out[k].state x none).actorState := by
  obtain ⟨-, hlen, hreset, hstep, -, -, -⟩ := C14_rollout_spec h
  refine ⟨hlen, ?_, ?_⟩
  · change planReset E splitEnv scen.sim none = _ at hreset
    rw [planReset_reset] at hreset
    cases hr : reset E.cfg scen.sim with
    | error e => rw [hr] at hreset; cases hreset
    | ok sim =>
      rw [hr] at hreset
      have hx := Except.ok.inj hreset
      rw [← hx]
      apply List.ext_getElem
      · simp [planKeys]
      · intro j h1 h2
        simp [planKeys]
  · intro k hk i hi x p hx hp
    have hs := hstep k hk
    change planStep E splitEnv out[k].state out[k].action none = _ at hs
    rw [planStep_eq] at hs
    split at hs
    · cases hs
    · simp only [Except.ok.injEq] at hs
      rw [← hs]
      simp only [List.getElem?_map, loopOutputs_get, agentOutput, List.getElem?_eq_getElem hi, hx, hp, Option.map_some]

/-- Consequence: with a planner that uses no random numbers, a rollout among sim agents that do is the same for every key. -/
theorem C157_rollouts_do_not_vary_partial {Y J Q C : Type} (E : PlanEnv D X K P n T) (splitEnv : K → Nat → List K)
    (reg : Dict (Metric n T)) (names : List String) (cr : Bool) {actor : Actor (PlanState X n T) (Act D) Y J Q C}
    (hf : KeyFree actor) (split : J → J × J) (params : Q) (z : Act D → Act D) (scen : PlanState X n T) (rng rng' : J) (N : Nat) :
    rollout (planEnv E splitEnv reg names cr) actor split params z scen rng N =
      rollout (planEnv E splitEnv reg names cr) actor split params z scen rng' N :=
  C157_rollout_key_free hf _ _ _ _ _ _ _ _ _

end

/-! ### A witness -/

/-- A sim agent that notes whether it was given a key; it controls nobody. -/
noncomputable def keyWatcher : SimAgent Bool Nat Unit 2 3 where
  init := fun key _ => key.isSome
  selectAction := fun _ _ x _ => { actorState := x, action := fun _ => { data := ⟨0, 0, 0, 0, 0⟩, valid := false }, isControlled := fun _ => false }

/-- An environment with this agent. -/
noncomputable def watcherEnv : PlanEnv (StateRow ℝ) Bool Nat Unit 2 3 :=
  { dynamics := stateDynamics, cfg := { maxNumObjects := 2, initSteps := 2 }, rewards := [], actors := [keyWatcher], params := [()] }

/-- A planner that keeps asking for the same spot. -/
noncomputable def parkedPlanner (S K P C : Type) [Inhabited C] : Actor S (Act (StateRow ℝ)) Unit K P C where
  init := fun _ _ => ()
  selectAction := fun _ _ _ _ => { actorState := (), action := { data := ⟨0, 0, 0, 0, 0⟩, valid := true }, isControlled := default }

theorem watcher_rollout : ∃ out, rollout (planEnv watcherEnv (fun k m => (List.range m).map (k + ·)) [] [] false)
    (parkedPlanner (PlanState Bool 2 3) Nat Unit (Fin 2 → Bool)) (fun k => (2 * k, 2 * k + 1)) () id
    { sim := carScen, actorStates := [] } 7 1 = .ok out := by
  have hr : ∃ sim, reset watcherEnv.cfg carScen = .ok sim := by
    rw [reset_eq]; exact ⟨_, rfl⟩
  obtain ⟨sim, hr⟩ := hr
  have h0 : planReset watcherEnv (fun k m => (List.range m).map (k + ·)) carScen none =
      .ok { sim := sim, actorStates := [false] } := by
    rw [planReset_reset, hr]; rfl
  obtain ⟨s1, h1⟩ : ∃ s1, planStep watcherEnv (fun k m => (List.range m).map (k + ·)) { sim := sim, actorStates := [false] }
      { data := ⟨0, 0, 0, 0, 0⟩, valid := true } none = .ok s1 := by
    rw [planStep_eq, if_neg (by simp [watcherEnv])]
    exact ⟨_, rfl⟩
  unfold rollout
  simp only [planEnv, h0, bind, Except.bind, scan, rolloutStep, parkedPlanner, h1, planMetrics, runMetrics, planSelectLoop, planReward,
    pure, Except.pure]
  exact ⟨_, rfl⟩

/-- The key of a rollout does not reach the sim agents. -/
theorem C157_agents_violated : ¬ AgentsGetKeys Bool Nat Unit Unit 2 3 := by
  intro h
  obtain ⟨out, ho⟩ := watcher_rollout
  obtain ⟨first, h1, h2⟩ := h _ _ _ _ _ _ _ _ _ _ _ _ _ ho
  obtain ⟨key, h3⟩ := h2 0 (by simp [watcherEnv])
  obtain ⟨hlen, h4, -⟩ := C157_agents_partial ho
  have h5 : out[0]? = some out[0] := List.getElem?_eq_getElem _
  rw [h5] at h1
  obtain rfl := Option.some.inj h1
  rw [h4] at h3
  simp [watcherEnv, keyWatcher] at h3

/-- The same agent does get a key from a reset with one. -/
example : ∃ s, planReset watcherEnv (fun k m => (List.range m).map (k + ·)) carScen (some 5) = .ok s ∧ s.actorStates = [true] := by
  obtain ⟨sim, hr⟩ : ∃ sim, reset watcherEnv.cfg carScen = .ok sim := by rw [reset_eq]; exact ⟨_, rfl⟩
  exact ⟨_, by rw [planReset_reset, hr]; rfl, rfl⟩

/-- A rollout as in C157_fresh_keys: an actor whose actions are its keys. The keys of the first two actions differ from each other and
from the key given. -/
example : ∃ out, rollout (S := Unit) (A := List Bool) (O := Unit) (M := Unit) (R := Unit) (X := List Bool) (P := Unit) (C := Unit)
      { reset := .ok, step := fun _ _ => .ok (), observe := id, metrics := fun _ => .ok (), reward := fun _ _ => .ok ()
        termination := fun _ => [], truncation := fun _ => [] }
      { init := fun k _ => k, selectAction := fun _ _ x k => { actorState := x, action := k, isControlled := () } }
      (fun k => (false :: k, true :: k)) () id () [true] 2 = .ok out ∧
    out.map (·.action) = [[false, true, true], [false, true, true, true], [false, true, true, true]] :=
  ⟨_, rfl, rfl⟩

end Waymax
