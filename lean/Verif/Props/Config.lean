import Verif.Model.Config
import Verif.Props.Following
import Verif.Props.Reward
import Verif.Props.Wrappers
/-
C63, C94 - C96: building environments and sim agents from a configuration, objects that enter the scene while a sim agent
drives them, and what the checks of the configuration guarantee (real arithmetic).
-/

namespace Waymax

open Real

section
variable {D K P S : Type} {n T : Nat} [NeZero T]

/-! ### C95: sim agents built from a configuration -/

omit [NeZero T] in
theorem controlFuncOf_ok {o : ObjectType} {f : SimState ℝ n T → Fin n → Bool} (h : controlFuncOf o = .ok f) :
    (o = .SDC ∨ o = .NON_SDC) ∧ ∀ s i, f s i = true ↔ ((s.objectMetadata i).isSdc = true ↔ o = .SDC) := by
  cases o with
  | SDC =>
    have := Except.ok.inj h
    subst this
    exact ⟨.inl rfl, fun s i => by simp⟩
  | NON_SDC =>
    have := Except.ok.inj h
    subst this
    exact ⟨.inr rfl, fun s i => by simp⟩
  | MODELED => cases h
  | VALID => cases h

/-- A sim agent can be built for the SDC and for all other objects, and for no other class of objects. It claims exactly the
objects of its class, in every state, and moves them with the default intelligent driver model. -/
theorem C95_create (c : SimAgentConfig) :
    ((∃ a : SimAgent Unit K P n T, createSimAgent c = .ok a) ↔ c.controlledObjects = .SDC ∨ c.controlledObjects = .NON_SDC) ∧
    ∀ a : SimAgent Unit K P n T, createSimAgent c = .ok a → ∀ p s x key i,
      ((a.selectAction p s x key).isControlled i = true ↔
        ((s.sim.objectMetadata i).isSdc = true ↔ c.controlledObjects = .SDC)) ∧
      (a.selectAction p s x key).action i = (waypointUpdate false (idmSpeeds {}) s.sim i).asAction := by
  refine ⟨⟨?_, ?_⟩, ?_⟩
  · rintro ⟨a, h⟩
    unfold createSimAgent at h
    cases hf : (controlFuncOf c.controlledObjects : Except Err (SimState ℝ n T → Fin n → Bool)) with
    | error e => rw [hf] at h; cases h
    | ok f => exact (controlFuncOf_ok hf).1
  · obtain ⟨ty, o⟩ := c
    cases ty
    rintro (h | h)
    · simp only at h; subst h; exact ⟨_, rfl⟩
    · simp only at h; subst h; exact ⟨_, rfl⟩
  · intro a h p s x key i
    unfold createSimAgent at h
    cases hf : (controlFuncOf c.controlledObjects : Except Err (SimState ℝ n T → Fin n → Bool)) with
    | error e => rw [hf] at h; cases h
    | ok f =>
      rw [hf] at h
      obtain ⟨ty, o⟩ := c
      cases ty
      have := Except.ok.inj h
      subst this
      exact ⟨(controlFuncOf_ok hf).2 s.sim i, rfl⟩

theorem mapM_create {cs : List SimAgentConfig} {as : List (SimAgent Unit K P n T)} (h : cs.mapM createSimAgent = .ok as) :
    List.Forall₂ (fun c a => createSimAgent c = .ok a) cs as := by
  induction cs generalizing as with
  | nil =>
    have := Except.ok.inj h
    subst this
    exact .nil
  | cons c cs ih =>
    rw [List.mapM_cons] at h
    cases hc : (createSimAgent c : Except Err (SimAgent Unit K P n T)) with
    | error e => rw [hc] at h; cases h
    | ok a =>
      rw [hc] at h
      cases hr : (cs.mapM createSimAgent : Except Err (List (SimAgent Unit K P n T))) with
      | error e =>
        change (cs.mapM createSimAgent >>= fun r => pure (a :: r)) = _ at h
        rw [hr] at h; cases h
      | ok r =>
        change (cs.mapM createSimAgent >>= fun r => pure (a :: r)) = _ at h
        rw [hr] at h
        have := Except.ok.inj h
        subst this
        exact .cons hc (ih hr)

theorem agentOutput_exists {X : Type} {E : PlanEnv D X K P n T} (hp : E.actors.length = E.params.length)
    {split : K → Nat → List K} (hsplit : ∀ k m, (split k m).length = m) {s : PlanState X n T}
    (hlen : E.actors.length = s.actorStates.length) (rng : Option K) {k : Nat} {a : SimAgent X K P n T}
    (ha : E.actors[k]? = some a) :
    ∃ p x key, agentOutput E split s rng k = some (a.selectAction p s x key) := by
  obtain ⟨hklt, hk⟩ := List.getElem?_eq_some_iff.1 ha
  have h2 : k < s.actorStates.length := hlen ▸ hklt
  have h3 : k < E.params.length := hp ▸ hklt
  unfold agentOutput
  rw [ha, List.getElem?_eq_getElem h2, List.getElem?_eq_getElem h3]
  cases rng with
  | none => exact ⟨_, _, _, rfl⟩
  | some r =>
    have h4 : k < (split r E.actors.length).length := by rw [hsplit]; exact hklt
    simp only [List.getElem?_eq_getElem h4, Option.map_some]
    exact ⟨_, _, _, rfl⟩

theorem agentOutput_actor {X : Type} {E : PlanEnv D X K P n T} {split : K → Nat → List K} {s : PlanState X n T}
    {rng : Option K} {k : Nat} {o} (h : agentOutput E split s rng k = some o) :
    ∃ a p x key, E.actors[k]? = some a ∧ o = a.selectAction p s x key := by
  unfold agentOutput at h
  split at h
  · rename_i a x p ha _ _
    split at h
    · exact ⟨a, p, x, none, ha, (Option.some.inj h).symm⟩
    · rw [Option.map_eq_some_iff] at h
      obtain ⟨key, -, rfl⟩ := h
      exact ⟨a, p, x, some key, ha, rfl⟩
  · cases h

theorem last_claim {X : Type} {E : PlanEnv D X K P n T} {split : K → Nat → List K} {s : PlanState X n T}
    {rng : Option K} {i : Fin n} (h : ∃ k o, Claims E split s rng i k o) :
    ∃ k o, Claims E split s rng i k o ∧ ∀ k' o', k < k' → ¬ Claims E split s rng i k' o' := by
  by_contra hc
  push Not at hc
  have key : ∀ m, ∃ k o, m ≤ k ∧ Claims E split s rng i k o := by
    intro m
    induction m with
    | zero => obtain ⟨k, o, ho⟩ := h; exact ⟨k, o, Nat.zero_le _, ho⟩
    | succ m ih =>
      obtain ⟨k, o, hm, ho⟩ := ih
      obtain ⟨k', o', hk, ho'⟩ := hc k o ho
      exact ⟨k', o', by omega, ho'⟩
  obtain ⟨k, o, hk, ho⟩ := key E.actors.length
  obtain ⟨a, -, -, -, ha, -⟩ := agentOutput_actor ho.1
  have := (List.getElem?_eq_some_iff.1 ha).1
  omega

/-- Who moves what in a planning environment whose sim agents were built from the configurations `cs`. An object that does not
start in an overlap and whose class some configuration names is driven by the default intelligent driver model along its
logged route. In all other cases the SDC goes where the planner sends it, and every other object replays the log. -/
theorem C95_who_moves {cs : List SimAgentConfig} {E : PlanEnv D Unit K P n T} (hb : cs.mapM createSimAgent = .ok E.actors)
    (hp : E.actors.length = E.params.length) {split : K → Nat → List K} (hsplit : ∀ k m, (split k m).length = m)
    {s s' : PlanState Unit n T} {a : Act D} {rng : Option K} (h : planStep E split s a rng = .ok s') {t t' : Fin T}
    (ht : (t : Int) = s.sim.timestep) (ht' : (t' : Int) = s.sim.timestep + 1) (i : Fin n) :
    let p := s'.sim.simTrajectory i t'
    let sdc := (s.sim.objectMetadata i).isSdc = true
    let named := ∃ c ∈ cs, (sdc ↔ c.controlledObjects = .SDC)
    let apart := ¬ StartsOverlapping s.sim.logTrajectory i
    let w := waypointUpdate false (idmSpeeds {}) s.sim i
    let u := E.dynamics.computeUpdate (fun _ => a) (fun j => s.sim.simTrajectory j t) i
    let l := s.sim.logTrajectory i t'
    (named → apart → p.x = w.x ∧ p.y = w.y ∧ p.yaw = w.yaw ∧ p.velX = w.velX ∧ p.velY = w.velY) ∧
    (¬ (named ∧ apart) → sdc → p.x = u.x ∧ p.y = u.y ∧ p.yaw = u.yaw ∧ p.velX = u.velX ∧ p.velY = u.velY) ∧
    (¬ (named ∧ apart) → ¬ sdc → p.x = l.x ∧ p.y = l.y ∧ p.yaw = l.yaw ∧ p.velX = l.velX ∧ p.velY = l.velY) := by
  intro p sdc named apart w u l
  have hlen : E.actors.length = s.actorStates.length := by
    by_contra hne
    obtain ⟨e, he⟩ := (C45_fails_iff E split s a rng).2 hne
    rw [he] at h; cases h
  have hF := mapM_create hb
  obtain ⟨w1, w2, w3⟩ := C45_who_moves h ht ht' i
  have hiff : (∃ k o, Claims E split s rng i k o) ↔ named ∧ apart := by
    constructor
    · rintro ⟨k, o, ho, hc, ha⟩
      obtain ⟨ag, pp, x, key, hag, rfl⟩ := agentOutput_actor ho
      obtain ⟨hlt, hk⟩ := List.getElem?_eq_some_iff.1 hag
      have hlt' : k < cs.length := by rw [hF.length_eq]; exact hlt
      have hcr := hF.get hlt' hlt
      simp only [List.get_eq_getElem] at hcr
      rw [hk] at hcr
      exact ⟨⟨cs[k], List.getElem_mem hlt', (((C95_create cs[k]).2 ag hcr pp s x key i).1).1 hc⟩, ha⟩
    · rintro ⟨⟨c, hc, hs⟩, ha⟩
      obtain ⟨k, hk, rfl⟩ := List.getElem_of_mem hc
      have hlt : k < E.actors.length := by rw [← hF.length_eq]; exact hk
      have hcr := hF.get hk hlt
      simp only [List.get_eq_getElem] at hcr
      obtain ⟨pp, x, key, ho⟩ := agentOutput_exists hp hsplit hlen rng (List.getElem?_eq_getElem hlt)
      exact ⟨k, _, ho, (((C95_create cs[k]).2 _ hcr pp s x key i).1).2 hs, ha⟩
  refine ⟨fun hn ha => ?_, fun hn hs => w2 (fun k o hk => hn (hiff.1 ⟨k, o, hk⟩)) hs,
    fun hn hs => w3 (fun k o hk => hn (hiff.1 ⟨k, o, hk⟩)) (by simpa [sdc] using hs)⟩
  obtain ⟨k, o, hk, hlast⟩ := last_claim (hiff.2 ⟨hn, ha⟩)
  have hm := w1 k o hk hlast
  obtain ⟨ag, pp, x, key, hag, rfl⟩ := agentOutput_actor hk.1
  obtain ⟨hlt, hke⟩ := List.getElem?_eq_some_iff.1 hag
  have hlt' : k < cs.length := by rw [hF.length_eq]; exact hlt
  have hcr := hF.get hlt' hlt
  simp only [List.get_eq_getElem] at hcr
  rw [hke] at hcr
  rw [((C95_create cs[k]).2 ag hcr pp s x key i).2] at hm
  exact hm

/-! ### C63: `make_sdc_dm_environment` -/

/-- The expectation: every configuration that the checks accept, that controls the SDC, whose rewards are known metrics, whose
sim agents can be built, with at least one scenario in the data set, gives an environment. -/
def C63_full (D K P S : Type) (n T : Nat) [NeZero T] : Prop :=
  ∀ (reg : Dict (Metric n T)) (d : DynamicsModel ℝ D n) (data : List S) (dc : DatasetConfig) (c : EnvironmentConfig),
    c.postInit = .ok () → waymaxConfigPostInit dc c = .ok () → c.env.controlledObject = .SDC →
    (∀ k ∈ c.rewards.map Prod.fst, k ∈ getMetricNames reg) → data ≠ [] →
    (∀ cs, c.simAgents = some cs → ∃ as : List (SimAgent Unit K P n T), cs.mapM createSimAgent = .ok as) →
    ∃ r : PlanEnv D Unit K P n T × DmEnv S, makeSdcDmEnvironment reg d data c = .ok r

/-- What the function does: it succeeds exactly when the SDC is the controlled object, the rewards are known metrics, there is
a scenario and no sim agent is configured; the environment then has no sim agents. -/
theorem C63_accepts_iff (reg : Dict (Metric n T)) (d : DynamicsModel ℝ D n) (data : List S) (c : EnvironmentConfig) :
    (∃ r : PlanEnv D Unit K P n T × DmEnv S, makeSdcDmEnvironment reg d data c = .ok r) ↔
      c.env.controlledObject = .SDC ∧ (∀ k ∈ c.rewards.map Prod.fst, k ∈ getMetricNames reg) ∧ data ≠ [] ∧
        (c.simAgents = none ∨ c.simAgents = some []) := by
  constructor
  · rintro ⟨r, h⟩
    unfold makeSdcDmEnvironment at h
    by_cases hs : c.env.controlledObject = .SDC
    swap
    · simp [hs, throw, throwThe, MonadExceptOf.throw, bind, Except.bind] at h
    obtain ⟨as, hlen, hpi⟩ : ∃ as : List (SimAgent Unit K P n T), (c.simAgents = none ∨ ∃ cs, c.simAgents = some cs ∧
        cs.length = as.length) ∧ (do
          let env ← planInit reg d c.env c.rewards (actors := as) (params := ([] : List P))
          let w ← dmInit data
          return (env, w)) = Except.ok r := by
      simp only [hs, ne_eq, not_true, if_false, pure_bind] at h
      cases hsa : c.simAgents with
      | none => rw [hsa] at h; exact ⟨[], .inl rfl, h⟩
      | some cs =>
        rw [hsa] at h
        cases hm : (cs.mapM createSimAgent : Except Err (List (SimAgent Unit K P n T))) with
        | error e => simp only [hm, bind, Except.bind] at h; cases h
        | ok as =>
          simp only [hm] at h
          exact ⟨as, .inr ⟨cs, rfl, (mapM_create hm).length_eq⟩, h⟩
    unfold planInit at hpi
    cases hr : linearRewardInit reg c.rewards with
    | error e => simp [hr, bind, Except.bind] at hpi
    | ok st =>
      have hrew := (C42_reward_init reg c.rewards).1 ⟨st, hr⟩
      by_cases hl : as.length = 0
      swap
      · simp [hr, hs, hl, bind, Except.bind, throw, throwThe, MonadExceptOf.throw, pure, Except.pure] at hpi
      · refine ⟨hs, hrew, ?_, ?_⟩
        · rintro rfl
          simp [hr, hs, hl, dmInit, bind, Except.bind, pure, Except.pure] at hpi
        · rcases hlen with h0 | ⟨cs, h1, h2⟩
          · exact .inl h0
          · right
            rw [h1, List.eq_nil_of_length_eq_zero (h2.trans hl)]
  · rintro ⟨hs, hrew, hd, hsa⟩
    obtain ⟨st, hr⟩ := (C42_reward_init reg c.rewards).2 hrew
    obtain ⟨x, rest, rfl⟩ := List.exists_cons_of_ne_nil hd
    unfold makeSdcDmEnvironment planInit
    rcases hsa with h0 | h0
    · simp [hs, h0, hr, dmInit, bind, Except.bind, pure, Except.pure]
    · simp [hs, h0, hr, dmInit, bind, Except.bind, pure, Except.pure]

/-- Without sim agents the expectation holds, and the environment is the plain single-agent one: no sim agents, the given
dynamics and configuration, and a wrapper that has not been reset. Missing: configurations with sim agents. -/
theorem C63_no_agents_partial {reg : Dict (Metric n T)} {d : DynamicsModel ℝ D n} {data : List S} {c : EnvironmentConfig}
    (hs : c.env.controlledObject = .SDC) (hr : ∀ k ∈ c.rewards.map Prod.fst, k ∈ getMetricNames reg) (hd : data ≠ [])
    (ha : c.simAgents = none ∨ c.simAgents = some []) :
    ∃ w : DmEnv S, makeSdcDmEnvironment reg d data c =
      .ok (({ dynamics := d, cfg := c.env, rewards := c.rewards, actors := [], params := [] } : PlanEnv D Unit K P n T), w) ∧
      w.initialized = false ∧ w.data = data.tail := by
  have hst : linearRewardInit reg c.rewards = .ok c.rewards := by
    obtain ⟨st, hst⟩ := (C42_reward_init reg c.rewards).2 hr
    unfold linearRewardInit at hst ⊢
    split at hst
    · rename_i hall; rw [if_pos hall]
    · cases hst
  obtain ⟨x, rest, rfl⟩ := List.exists_cons_of_ne_nil hd
  refine ⟨{ curState := none, initialized := false, done := false, data := rest }, ?_, rfl, rfl⟩
  unfold makeSdcDmEnvironment planInit
  rcases ha with h0 | h0
  · simp [hs, h0, hst, dmInit, bind, Except.bind, pure, Except.pure]
  · simp [hs, h0, hst, dmInit, bind, Except.bind, pure, Except.pure]

/-- Any configuration with a sim agent is rejected, because the function passes no parameters for it. -/
theorem C63_violated [Inhabited S] (d : DynamicsModel ℝ D n) : ¬ C63_full D K P S n T := by
  intro h
  have := h [("overlap", fun s => .ok (.perObject (overlapMetric s))), ("offroad", fun s => do return .perObject (← offroadMetric s))]
    d [default] {} { simAgents := some [⟨.IDM, .NON_SDC⟩] } rfl rfl rfl (by simp [getMetricNames]) (by simp)
    (by rintro cs hcs; cases hcs; exact ⟨_, rfl⟩)
  have := ((C63_accepts_iff _ _ _ _).1 this).2.2.2
  simp at this

/-! ### Built-in agents and the SDC -/

/-- The built-in sim agents leave the SDC alone unless told otherwise: in every state they claim exactly the other objects. -/
theorem C95_builtin_agents (v : ℝ) (M : IdmParams) (upd : SimState ℝ n T → Fin n → Upd ℝ) (prm : P) (s : PlanState Unit n T)
    (key : Option K) (i : Fin n) :
    let other := (s.sim.objectMetadata i).isSdc = false
    (((constantSpeedPolicy v : SimAgent Unit K P n T).selectAction prm s () key).isControlled i = true ↔ other) ∧
    (((idmAgent M : SimAgent Unit K P n T).selectAction prm s () key).isControlled i = true ↔ other) ∧
    (((simAgent defaultControlFunc upd : SimAgent Unit K P n T).selectAction prm s () key).isControlled i = true ↔ other) := by
  intro other
  have h : ∀ b : Bool, (!b) = true ↔ b = false := by decide
  exact ⟨h _, h _, h _⟩

/-! ### C94: objects that enter the scene while a sim agent drives them -/

/-- The expectation: an object driven by a way-point following agent that appears in the scene appears at its logged
position. -/
def C94_full (D K P : Type) (n T : Nat) [NeZero T] : Prop :=
  ∀ (E : PlanEnv D Unit K P n T) (k : Nat) (ctrl : SimState ℝ n T → Fin n → Bool) (inv : Bool) (us : UpdateSpeed n T)
    (i : Fin n) (scen : SimState ℝ n T), DrivenBy E k ctrl (waypointUpdate inv us) i scen →
    ∀ (split : K → Nat → List K), (∀ k m, (split k m).length = m) → ∀ (s s' : PlanState Unit n T) (a : Act D) (rng : Option K),
    SameScenario scen s.sim → planStep E split s a rng = .ok s' → ∀ t t' : Fin T, (t : Int) = s.sim.timestep →
    (t' : Int) = s.sim.timestep + 1 → (s.sim.simTrajectory i t).valid = false → (s'.sim.simTrajectory i t').valid = true →
    posOf (s'.sim.simTrajectory i t') = posOf (scen.logTrajectory i t')

/-- What a way-point following agent asks for an object that is absent, or for which it has no speed: the placeholder. -/
theorem waypoint_absent {inv : Bool} {us : UpdateSpeed n T} {s : SimState ℝ n T} {i : Fin n} {t : Fin T}
    (ht : (t : Int) = s.timestep) (hv : (s.simTrajectory i t).valid = false ∨ (us s i).2 = false) :
    waypointUpdate inv us s i = { x := -1, y := -1, yaw := -1, velX := -1, velY := -1, valid := false } := by
  simp only [waypointUpdate, dynIndex_of_eq _ ht, nextByProjection]
  rw [if_neg]
  · simp [invalidPt, ScalarOps.invalid]
  · rcases hv with h | h <;> cases inv <;> simp [h]

/-- What such an agent answers for an object that is absent, or for which it has no speed: an action marked invalid, with -1 throughout. -/
theorem C94_answer {inv : Bool} {us : UpdateSpeed n T} {ctrl : SimState ℝ n T → Fin n → Bool} (prm : P) (s : PlanState Unit n T)
    (key : Option K) {i : Fin n} {t : Fin T} (ht : (t : Int) = s.sim.timestep)
    (hv : (s.sim.simTrajectory i t).valid = false ∨ (us s.sim i).2 = false) :
    ((simAgent ctrl (waypointUpdate inv us) : SimAgent Unit K P n T).selectAction prm s () key).action i =
      { data := { x := -1, y := -1, yaw := -1, velX := -1, velY := -1 }, valid := false } := by
  have h := waypoint_absent (inv := inv) ht hv
  simp only [simAgent, h, Upd.asAction]

/-- What the agent that stands still answers: the present state of the object, marked valid if the object is present. -/
theorem C78_answer {ctrl : SimState ℝ n T → Fin n → Bool} (prm : P) (s : PlanState Unit n T) (key : Option K) {i : Fin n} {t : Fin T}
    (ht : (t : Int) = s.sim.timestep) :
    let c := s.sim.simTrajectory i t
    ((simAgent ctrl frozenUpdate : SimAgent Unit K P n T).selectAction prm s () key).action i =
      { data := { x := c.x, y := c.y, yaw := c.yaw, velX := c.velX, velY := c.velY }, valid := c.valid } := by
  simp only [simAgent, frozenUpdate, dynIndex_of_eq _ ht, Upd.asAction]

/-- What happens: an absent object (or one the agent has no speed for) gets the placeholder -1 for position, heading and
velocity. If it was absent it is present afterwards exactly when objects may enter and the log has it at the new step: it
enters at (-1, -1). An object that was present stays present. -/
theorem C94_entering {E : PlanEnv D Unit K P n T} {k : Nat} {ctrl : SimState ℝ n T → Fin n → Bool} {inv : Bool}
    {us : UpdateSpeed n T} {i : Fin n} {scen : SimState ℝ n T} (hD : DrivenBy E k ctrl (waypointUpdate inv us) i scen)
    {split : K → Nat → List K} (hsplit : ∀ k m, (split k m).length = m) {s s' : PlanState Unit n T} {a : Act D}
    {rng : Option K} (hscen : SameScenario scen s.sim) (h : planStep E split s a rng = .ok s') {t t' : Fin T}
    (ht : (t : Int) = s.sim.timestep) (ht' : (t' : Int) = s.sim.timestep + 1)
    (hv : (s.sim.simTrajectory i t).valid = false ∨ (us s.sim i).2 = false) :
    let p := s'.sim.simTrajectory i t'
    (p.x = -1 ∧ p.y = -1 ∧ p.yaw = -1 ∧ p.velX = -1 ∧ p.velY = -1) ∧
    ((s.sim.simTrajectory i t).valid = false →
      (p.valid = true ↔ E.cfg.allowNewObjectsAfterWarmup = true ∧ (scen.logTrajectory i t').valid = true)) ∧
    ((s.sim.simTrajectory i t).valid = true → p.valid = true) := by
  intro p
  obtain ⟨⟨fx, fy, fyaw, fvx, fvy⟩, fv, -, -, -⟩ := driven_step hD hsplit hscen h ht ht'
  have hu := waypoint_absent (inv := inv) ht hv
  rw [hu] at fx fy fyaw fvx fvy
  refine ⟨⟨fx, fy, fyaw, fvx, fvy⟩, fun hc => ?_, fv⟩
  have hr := (C45_rest_of_step h ht ht' i).1
  rw [hscen.log, hc] at hr
  refine hr.trans ?_
  cases E.cfg.allowNewObjectsAfterWarmup <;> simp

/-- When objects may not enter later, none does, so the expectation holds. Missing: environments where objects may enter. -/
theorem C94_no_entering_partial {E : PlanEnv D Unit K P n T} {k : Nat} {ctrl : SimState ℝ n T → Fin n → Bool} {inv : Bool}
    {us : UpdateSpeed n T} {i : Fin n} {scen : SimState ℝ n T} (hD : DrivenBy E k ctrl (waypointUpdate inv us) i scen)
    (hcfg : E.cfg.allowNewObjectsAfterWarmup = false)
    {split : K → Nat → List K} (hsplit : ∀ k m, (split k m).length = m) {s s' : PlanState Unit n T} {a : Act D}
    {rng : Option K} (hscen : SameScenario scen s.sim) (h : planStep E split s a rng = .ok s') {t t' : Fin T}
    (ht : (t : Int) = s.sim.timestep) (ht' : (t' : Int) = s.sim.timestep + 1)
    (hv : (s.sim.simTrajectory i t).valid = false) : (s'.sim.simTrajectory i t').valid = false := by
  have := (C94_entering hD hsplit hscen h ht ht' (.inl hv)).2.1 hv
  rw [hcfg] at this
  simpa using this

/-! ### C96: what an accepted configuration guarantees -/

/-- The data a configuration stands for: a scenario has SDC paths exactly when the data set is asked for them; paths and road
graph, if present, are not empty, and there is a road graph. -/
structure LoadedAs (dc : DatasetConfig) (s : SimState ℝ n T) : Prop where
  paths : s.sdcPaths.isSome = dc.includeSdcPaths
  somePoint : ∀ ps, s.sdcPaths = some ps → noPathPoints ps = false
  road : ∃ rg, s.roadgraphPoints = some rg ∧ rg ≠ []

/-- The names of the metrics that need SDC paths. -/
def routeMetrics : List String := ["sdc_wrongway", "sdc_progression", "sdc_off_route"]

/-- The expectation: with an accepted configuration that names built-in metrics only, metrics and rewards can be computed in
every state loaded as configured. -/
def C96_full (D : Type) (n T : Nat) [NeZero T] : Prop :=
  ∀ (dc : DatasetConfig) (c : EnvironmentConfig), c.postInit = .ok () → waymaxConfigPostInit dc c = .ok () →
    (∀ k ∈ c.metricsToRun ++ c.rewards.map Prod.fst, k ∈ getMetricNames (builtinMetrics (n := n) (T := T))) →
    c.env.controlledObject ≠ .NON_SDC → ∀ (s : SimState ℝ n T), LoadedAs dc s → ∀ a : Fin n → Act D,
    (∃ out, envMetrics builtinMetrics c.metricsToRun s = .ok out) ∧
    ∃ r, envReward builtinMetrics c.env c.computeReward c.rewards s a = .ok r

theorem progression_defined {s : SimState ℝ n T} {ps : List (SdcPath ℝ)} (h : s.sdcPaths = some ps)
    (hp : noPathPoints ps = false) : ∃ r, progressionMetric s = .ok r := by
  unfold progressionMetric
  simp only [h, hp, Bool.false_eq_true, if_false]
  have hne : ps ≠ [] := by rintro rfl; simp [noPathPoints] at hp
  generalize hd : (ps.map fun path => listMin (path.points.map fun p => (if sdcValidCurrent s then
    orInf (p.valid && path.onRoute) (pathDist (sdcXyCurrent s) p) else ⊤ : WithTop ℝ))) = ds
  have hlt : argmin ds < ps.length := by
    have hl : ds.length = ps.length := by rw [← hd]; simp
    rw [← hl]
    exact argmin_lt (by intro h0; rw [h0] at hl; exact hne (List.eq_nil_of_length_eq_zero hl.symm))
  rw [List.getElem?_eq_getElem hlt]
  simp only
  split <;> exact ⟨_, rfl⟩

/-- Every built-in metric is defined in a state loaded as configured, if the data set is asked for paths when it needs them. -/
theorem builtin_defined {dc : DatasetConfig} {s : SimState ℝ n T} (hs : LoadedAs dc s) {k : String}
    (hk : k ∈ getMetricNames (builtinMetrics (n := n) (T := T))) (hr : k ∈ routeMetrics → dc.includeSdcPaths = true) :
    ∃ m v, (builtinMetrics (n := n) (T := T)).get? k = some m ∧ m s = .ok v := by
  have hpaths : k ∈ routeMetrics → ∃ ps, s.sdcPaths = some ps ∧ noPathPoints ps = false := by
    intro hm
    obtain ⟨ps, hps⟩ := Option.isSome_iff_exists.1 (hs.paths.trans (hr hm))
    exact ⟨ps, hps, hs.somePoint ps hps⟩
  obtain ⟨rg, hrg, hrg0⟩ := hs.road
  simp only [getMetricNames, builtinMetrics, List.map_cons, List.map_nil, List.mem_cons, List.not_mem_nil, or_false] at hk
  rcases hk with rfl | rfl | rfl | rfl | rfl | rfl | rfl
  · exact ⟨_, _, rfl, rfl⟩
  · exact ⟨_, _, rfl, rfl⟩
  · obtain ⟨r, rs, rfl⟩ := List.exists_cons_of_ne_nil hrg0
    obtain ⟨f, hf⟩ : ∃ f, offroadMetric s = .ok f := by
      simp only [offroadMetric, hrg]
      exact ⟨_, rfl⟩
    exact ⟨_, .perObject f, rfl, by simp only [hf]; rfl⟩
  · exact ⟨_, _, rfl, rfl⟩
  · obtain ⟨ps, h1, h2⟩ := hpaths (by simp [routeMetrics])
    have : ∃ r, wrongWayMetric s = .ok r := by
      unfold wrongWayMetric
      simp only [h1, h2, Bool.false_eq_true, if_false]
      split <;> exact ⟨_, rfl⟩
    obtain ⟨r, hr⟩ := this
    exact ⟨_, .scalar r, rfl, by simp only [hr]; rfl⟩
  · obtain ⟨ps, h1, h2⟩ := hpaths (by simp [routeMetrics])
    obtain ⟨r, hr⟩ := progression_defined h1 h2
    exact ⟨_, .scalar r, rfl, by simp only [hr]; rfl⟩
  · obtain ⟨ps, h1, h2⟩ := hpaths (by simp [routeMetrics])
    have : ∃ r, offRouteMetric s = .ok r := by
      unfold offRouteMetric
      simp only [h1, h2, Bool.false_eq_true, if_false]
      split <;> exact ⟨_, rfl⟩
    obtain ⟨r, hr⟩ := this
    exact ⟨_, .scalar r, rfl, by simp only [hr]; rfl⟩

/-- An accepted configuration asks the data set for paths if one of its metrics needs them. -/
theorem C96_accepted_iff (dc : DatasetConfig) (c : EnvironmentConfig) :
    (c.postInit = .ok () ↔ ∀ k, c.obsNumSteps = some k → k ≤ c.env.initSteps) ∧
    (waymaxConfigPostInit dc c = .ok () ↔ ∀ k ∈ c.metricsToRun, k ∈ routeMetrics → dc.includeSdcPaths = true) := by
  constructor
  · unfold EnvironmentConfig.postInit
    cases c.obsNumSteps with
    | none => simp
    | some k => by_cases h : k > c.env.initSteps <;> simp [h, not_le.2, not_lt.1]
  · unfold waymaxConfigPostInit routeMetrics
    cases dc.includeSdcPaths with
    | true => simp
    | false =>
      simp only [Bool.not_false, Bool.true_and, List.contains_iff_mem, Bool.or_eq_true, Bool.false_eq_true, imp_false]
      constructor
      · intro h k hk hm
        split at h
        · cases h
        · rename_i hn
          simp only [List.mem_cons, List.not_mem_nil, or_false] at hm
          rcases hm with rfl | rfl | rfl <;> tauto
      · intro h
        rw [if_neg]
        rintro ((h1 | h1) | h1)
        · exact h _ h1 (by simp)
        · exact h _ h1 (by simp)
        · exact h _ h1 (by simp)

/-- The metrics of an accepted configuration can be computed, and so can its rewards if none of them needs paths or the data
set is asked for paths. Missing: rewards that need paths are not checked. -/
theorem C96_metrics_partial {dc : DatasetConfig} {c : EnvironmentConfig} (h : waymaxConfigPostInit dc c = .ok ())
    (hk : ∀ k ∈ c.metricsToRun ++ c.rewards.map Prod.fst, k ∈ getMetricNames (builtinMetrics (n := n) (T := T)))
    (hc : c.env.controlledObject ≠ .NON_SDC) {s : SimState ℝ n T} (hs : LoadedAs dc s) (a : Fin n → Act D) :
    (∃ out, envMetrics builtinMetrics c.metricsToRun s = .ok out) ∧
    ((∀ k ∈ c.rewards.map Prod.fst, k ∈ routeMetrics → dc.includeSdcPaths = true) →
      ∃ r, envReward builtinMetrics c.env c.computeReward c.rewards s a = .ok r) := by
  have hr := ((C96_accepted_iff dc c).2).1 h
  refine ⟨((C42_run_metrics_fails_iff _ s _).1).2 fun k hkm =>
    builtin_defined hs (hk k (List.mem_append_left _ hkm)) (hr k hkm), fun hrew => ?_⟩
  unfold envReward
  cases c.computeReward with
  | false => exact ⟨_, rfl⟩
  | true =>
    obtain ⟨mask, hm⟩ : ∃ mask, getControlMask s.objectMetadata c.env.controlledObject = .ok mask := by
      cases hty : c.env.controlledObject with
      | SDC => exact ⟨_, rfl⟩
      | MODELED => exact ⟨_, rfl⟩
      | VALID => exact ⟨_, rfl⟩
      | NON_SDC => exact absurd hty hc
    simp only [if_true, hm, bind, Except.bind]
    obtain ⟨st, hst⟩ := (C42_reward_init builtinMetrics c.rewards).2 fun k hkr => hk k (List.mem_append_right _ hkr)
    obtain ⟨h1, -, h3⟩ := C42_reward_survives hst [] s a mask
    rw [h1] at h3
    cases hl : linearReward builtinMetrics c.rewards s a mask with
    | ok r => exact ⟨r, rfl⟩
    | error e =>
      exfalso
      obtain ⟨k, hkr, m, hm1, hm2⟩ := h3 e hl
      obtain ⟨m', v, hm1', hv⟩ := builtin_defined hs (hk k (List.mem_append_right _ hkr)) (hrew k hkr)
      rw [hm1] at hm1'
      cases hm1'
      rw [hm2] at hv; cases hv

end

/-! ### Concrete cases -/

/-- A state without SDC paths, with one road-graph point. -/
noncomputable def noPathScen : SimState ℝ 2 3 :=
  { carScen with roadgraphPoints := some [{ x := 0, y := 0, z := 0, dirX := 1, dirY := 0, dirZ := 0, type := 15, id := 1, valid := true }] }

theorem noPathScen_loaded : LoadedAs {} noPathScen :=
  ⟨rfl, fun ps h => by simp [noPathScen, carScen] at h, ⟨_, rfl, by simp⟩⟩

/-- A reward on progress along the route is accepted without SDC paths and cannot be computed. -/
theorem C96_violated : ¬ C96_full Unit 2 3 := by
  intro h
  obtain ⟨-, r, hr⟩ := h {} { rewards := [("sdc_progression", 1)] } rfl rfl (by simp [getMetricNames, builtinMetrics])
    (by simp) noPathScen noPathScen_loaded (fun _ => { data := (), valid := true })
  cases hr

/-- The default configuration is accepted and its metrics and rewards can be computed. -/
example : (∃ out, envMetrics builtinMetrics ({} : EnvironmentConfig).metricsToRun noPathScen = .ok out) ∧
    ∃ r, envReward builtinMetrics ({} : EnvironmentConfig).env true ({} : EnvironmentConfig).rewards noPathScen
      (fun _ => { data := (), valid := true }) = .ok r := by
  obtain ⟨h1, h2⟩ := C96_metrics_partial (dc := {}) (c := {}) rfl (by simp [getMetricNames, builtinMetrics]) (by simp)
    noPathScen_loaded (fun _ => ({ data := (), valid := true } : Act Unit))
  exact ⟨h1, h2 (by simp [routeMetrics])⟩

/-- A car that appears in the log at step 2 only. -/
noncomputable def enterScen : SimState ℝ 2 3 :=
  { carScen with logTrajectory := fun i t => { ptAt (10 * i.val) 0 0 0 0 with valid := decide (i = 0 ∨ t = 2) } }

theorem enter_apart (i : Fin 2) : ¬ StartsOverlapping enterScen.logTrajectory i := stop_apart i

/-- The default IDM agent and a car entering at step 2 of the log: the car enters at (-1, -1) instead of (10, 0). -/
theorem C94_violated : ¬ C94_full (StateRow ℝ) Unit Unit 2 3 := by
  intro hall
  obtain ⟨s0, s1, -, hsc, hts, htr, hst⟩ := push_episode (idmAgent {}) enterScen
  have hD := drivenBy_push (upd := waypointUpdate false (idmSpeeds {})) (car_claims enterScen rfl) (enter_apart 1)
  have ht : ((1 : Fin 3) : Int) = s0.sim.timestep := by rw [hts]; rfl
  have ht' : ((2 : Fin 3) : Int) = s0.sim.timestep + 1 := by rw [hts]; rfl
  have hv : (s0.sim.simTrajectory 1 1).valid = false := by rw [htr]; rfl
  obtain ⟨⟨hx, -⟩, hval, -⟩ := C94_entering hD (split := fun _ m => List.replicate m ()) (by simp) hsc hst ht ht' (.inl hv)
  have h1 := hall _ 0 _ _ _ 1 _ hD (fun _ m => List.replicate m ()) (by simp) s0 s1 _ none hsc hst 1 2 ht ht' hv
    ((hval hv).2 ⟨rfl, rfl⟩)
  have h2 := congrArg Prod.fst h1
  simp only [posOf, hx] at h2
  norm_num [enterScen, ptAt] at h2

/-- C95: an environment with one configured agent for the other objects; car 1 is driven, the SDC goes to (3, 4). -/
example : ∃ (E : PlanEnv (StateRow ℝ) Unit Unit Unit 2 3) (s0 s1 : PlanState Unit 2 3),
    [SimAgentConfig.mk .IDM .NON_SDC].mapM createSimAgent = .ok E.actors ∧ E.actors.length = E.params.length ∧
    planStep E (fun _ m => List.replicate m ()) s0 { data := ⟨3, 4, 0, 0, 0⟩, valid := true } none = .ok s1 ∧
    (s1.sim.simTrajectory 0 2).x = 3 ∧
    (s1.sim.simTrajectory 1 2).x = (waypointUpdate false (idmSpeeds {}) s0.sim 1).x := by
  obtain ⟨s0, s1, -, hsc, hts, htr, hst⟩ := push_episode (idmAgent {}) carScen
  have ht : ((1 : Fin 3) : Int) = s0.sim.timestep := by rw [hts]; rfl
  have ht' : ((2 : Fin 3) : Int) = s0.sim.timestep + 1 := by rw [hts]; rfl
  have hb : [SimAgentConfig.mk .IDM .NON_SDC].mapM createSimAgent = .ok (pushEnv (n := 2) (T := 3) [idmAgent {}]).actors := rfl
  have h0 := (C95_who_moves hb rfl (by simp) hst ht ht' 0).2.1
  have h1 := (C95_who_moves hb rfl (by simp) hst ht ht' 1).1
  refine ⟨_, s0, s1, hb, rfl, hst, (h0 ?_ ?_).1, (h1 ?_ ?_).1⟩
  · rintro ⟨⟨c, hc, h⟩, -⟩
    rw [hsc.objects] at h
    simp only [List.mem_singleton] at hc
    subst hc
    simp [carScen] at h
  · rw [hsc.objects]; rfl
  · exact ⟨_, List.mem_singleton.2 rfl, by rw [hsc.objects]; simp [carScen]⟩
  · rw [hsc.log]; exact cars_apart 1

end Waymax
