import Verif.Spec.EndToEnd
import Verif.Props.GeneratorRun
import Verif.Props.BatchLogReplay
import Verif.Props.Metrics
import Verif.Props.Reward
import Verif.Props.BatchObserve
/-
C130: from the files of a data set to closed-loop simulation.
-/

namespace Waymax

theorem Forall₂_mem {α β : Type} {R Q : α → β → Prop} {l : List α} {m : List β} (h : List.Forall₂ R l m)
    (hq : ∀ a b, b ∈ m → R a b → Q a b) : List.Forall₂ Q l m := by
  induction h with
  | nil => exact .nil
  | cons hr _ ih => exact .cons (hq _ _ List.mem_cons_self hr) (ih fun a b hb => hq a b (List.mem_cons_of_mem _ hb))

theorem places_scenarios (Ss : List (StateNd ℝ)) (n T : Nat) :
    (Ss.flatMap fun S => S.scenarios n T) = (places Ss).map fun q => q.1.scenario n T q.2 := by
  unfold places StateNd.scenarios
  rw [List.map_flatMap]
  simp [Function.comp_def]

section
variable {n T : Nat}

theorem runMetrics_mem {reg : Dict (Metric n T)} {s : SimState ℝ n T} (names : List String) :
    ∀ {acc out : Dict (MetricArr n)}, (names.foldlM (fun results name => match reg.get? name with
        | some m => do return results.set name (← m s)
        | none => (Except.error .valueError : Except Err (Dict (MetricArr n)))) acc) = .ok out →
      (∀ e ∈ acc, ∃ f, reg.get? e.1 = some f ∧ f s = .ok e.2) → ∀ e ∈ out, ∃ f, reg.get? e.1 = some f ∧ f s = .ok e.2 := by
  induction names with
  | nil =>
    intro acc out h ha
    cases h
    exact ha
  | cons a names ih =>
    intro acc out h ha
    rw [List.foldlM_cons] at h
    obtain ⟨d, h1, h2⟩ := bind_eq_ok.1 h
    refine ih h2 fun e he => ?_
    cases hg : reg.get? a with
    | none => rw [hg] at h1; cases h1
    | some f =>
      rw [hg] at h1
      obtain ⟨v, h3, h4⟩ := bind_eq_ok.1 h1
      cases h4
      unfold Dict.set at he
      split at he
      · obtain ⟨e', he', rfl⟩ := List.mem_map.1 he
        by_cases hk : (e'.1 == a) = true
        · rw [if_pos hk]; exact ⟨f, hg, h3⟩
        · rw [if_neg hk]; exact ha e' he'
      · rcases List.mem_append.1 he with he | he
        · exact ha e he
        · rw [List.mem_singleton.1 he]; exact ⟨f, hg, h3⟩

end

section
variable {F : Type} {c : DatasetConfig} {devices : Nat}

/-- The log does not change in a rollout. -/
theorem rollout_log {D X K P C M R : Type} {n T : Nat} [NeZero T] {d : DynamicsModel ℝ D n} {cfg : EnvConfig} {metrics : SimState ℝ n T → Except Err M}
    {reward : SimState ℝ n T → (Fin n → Act D) → Except Err R} {actor : Actor (SimState ℝ n T) (Fin n → Act D) X K P C} {split : K → K × K}
    {params : P} {zerosLike : (Fin n → Act D) → Fin n → Act D} {scen : SimState ℝ n T} {rng : K} {N : Nat}
    {out : List (RolloutEntry (SimState ℝ n T) (Fin n → Act D) (SimState ℝ n T) M R)}
    (h : rollout (baseEnv d cfg metrics reward) actor split params zerosLike scen rng N = .ok out) {k : Nat} (hk : k ≤ N)
    (hlen : k < out.length := by omega) : out[k].state.logTrajectory = scen.logTrajectory := by
  obtain ⟨-, hl, hreset, hstep, -⟩ := C14_rollout_spec h
  induction k with
  | zero => exact (C01_reset_spec hreset).2.2.2.log
  | succ k ih =>
    have h1 := hstep k (by omega)
    obtain ⟨m, -, heq⟩ := step_ok h1
    rw [heq]
    exact ih (by omega) (by omega)

/-- A state that holds a record, replayed by the expert. -/
theorem replay_scenario {cfg : EnvConfig} {n : Nat} (hw : 1 ≤ cfg.initSteps) {pre : List Nat} {S : StateNd ℝ} (hS : S.Shaped pre n 91)
    {numSteps : Nat} (hfit : cfg.initSteps + numSteps ≤ 91) (names : List String) (hnames : ∀ k ∈ names, S.Supports pre 91 k)
    (computeReward : Bool) (rewards : Dict ℝ)
    (hrewards : ∀ e ∈ rewards, e.1 ∈ ["log_divergence", "overlap", "offroad", "kinematic_infeasibility"] ∧ S.Supports pre 91 e.1)
    {o : RolloutNd} (h : rolloutLogByExpertSdcNd (baseEnvNd (stateNd ℝ) cfg builtinMetricsNd names computeReward rewards) (stateInverseNd ℝ) S
      numSteps = .ok o) {p : List Nat} (hp : InRange pre p) {R : Nat} {paths : Option (Nat × Nat)} {r : Record}
    (hr : HoldsRecord R paths r (S.scenario n 91 p)) : Replays n cfg.initSteps numSteps r o p := by
  have hlog := fun k (hk : k ≤ numSteps) => C120_log_replay hw hS hfit names hnames computeReward rewards hrewards h hk hp
  refine ⟨fun k hk => ?_, fun k hk i t ht => ?_, fun m hm k hk i => ?_⟩
  · rw [(hlog k hk).1]; ring
  · obtain ⟨w, h1, h2⟩ := hr.log i t
    obtain ⟨g1, g2⟩ := hlog k hk
    obtain ⟨a1, a2, a3, a4, a5, a6⟩ := g2 i t (by rw [g1]; omega)
    refine ⟨w, h1, ?_⟩
    dsimp only
    rw [a1, a2, a3, a4, a5, a6]
    exact ⟨h2.position.1, h2.position.2.1, h2.velocity.1, h2.velocity.2, h2.direction.1, h2.time⟩
  · have hag := C120_expert_rollout (C105_state n) (C120_state_inverse n) cfg hS names hnames computeReward rewards hrewards numSteps
    rw [h] at hag
    obtain ⟨-, -, -, hag⟩ := hag
    obtain ⟨es, h1, h2, h3⟩ := hag p hp
    obtain ⟨-, hlen, -, -, hent, -, -⟩ := C14_rollout_spec h1
    have hsh := h3 k (by omega)
    obtain ⟨a, ha, hka, hra⟩ : ∃ a ∈ es[k].metrics, "log_divergence" = a.1 ∧ m.Reads ((numSteps + 1) :: pre) n (k :: p) a.2 := by
      obtain ⟨g1, g2⟩ := List.forall₂_iff_get.1 hsh.metrics
      obtain ⟨j, hj, e⟩ := List.getElem_of_mem hm
      have := g2 j hj (by omega)
      simp only [List.get_eq_getElem, e] at this
      exact ⟨_, List.getElem_mem _, this⟩
    obtain ⟨f, hf, hv⟩ := runMetrics_mem names (hent k hk).2.1 (by simp) a ha
    rw [← hka] at hf
    have hf' : f = fun s => .ok (.perObject (logDivergenceMetric s)) := by
      have : (builtinMetrics (n := n) (T := 91)).get? "log_divergence" = some fun s => .ok (.perObject (logDivergenceMetric s)) := rfl
      rw [this] at hf
      exact (Option.some.inj hf).symm
    rw [hf'] at hv
    have hv' : a.2 = .perObject (logDivergenceMetric es[k].state) := (Except.ok.inj hv).symm
    rw [hv'] at hra
    obtain ⟨-, -, hra⟩ := hra
    have hval := hra i
    have hst := hsh.state
    obtain ⟨g1, g2⟩ := hlog k hk
    rw [hst] at g1 g2
    have hpos : ((⟨cfg.initSteps - 1 + k, by omega⟩ : Fin 91) : Int) = es[k].state.timestep := by rw [g1]; simp only; omega
    have hz := (C36_log_divergence es[k].state hpos i).2.2.2 (by
      obtain ⟨a1, a2, -⟩ := g2 i ⟨cfg.initSteps - 1 + k, by omega⟩ (le_of_eq hpos)
      rw [a1, a2]
      have hkeep : es[k].state.logTrajectory = (S.scenario n 91 p).logTrajectory :=
        rollout_log h1 hk
      rw [hkeep]
      exact ⟨rfl, rfl⟩)
    rw [hval] at hz
    simpa using hz

/-- C130: from the files to closed-loop simulation. Every batch a process yields can be rolled out under the expert with state dynamics, with
any built-in metrics and rewards the data set provides for; and the scenarios in these rollouts, one by one, replay the records of the
files of this process, each of them as often as asked for, except for less than a batch per shard if remainders are dropped. -/
theorem C130_replay {read : F → List Record} {files : List F} {P p : Nat} {out : List (Except Err (StateNd ℝ))}
    (hagg : c.aggregateTimesteps = true) (hscen : c.batchByScenario = true) (hdims : ∀ b ∈ c.dims devices, b ≠ 0) (hS : 1 ≤ c.numShards)
    (hK : c.includeSdcPaths = true → 1 ≤ c.numPointsPerPath.getD 0) (h : GeneratorYields c devices read files P p out)
    {cfg : EnvConfig} (hn : cfg.maxNumObjects = kept c.maxNumObjects 128) (hc : cfg.controlledObject ≠ .NON_SDC) (hw : 1 ≤ cfg.initSteps)
    {numSteps : Nat} (hk : 1 ≤ numSteps) (hfit : cfg.initSteps + numSteps ≤ 91)
    (names : List String) (hnames : ∀ k ∈ names, k ∈ builtinMetricsNd.map Prod.fst ∧ c.Provides k) (computeReward : Bool) (rewards : Dict ℝ)
    (hrewards : ∀ e ∈ rewards, e.1 ∈ ["log_divergence", "overlap", "offroad", "kinematic_infeasibility"] ∧ c.Provides e.1) :
    ∃ Ss : List (StateNd ℝ), out = Ss.map .ok ∧
      ∃ recs missing : List Record, (recs ++ missing).Perm (List.replicate c.rep ((share files P p).flatMap read)).flatten ∧
        List.Forall₂ (fun r q => ∃ o, rolloutLogByExpertSdcNd (baseEnvNd (stateNd ℝ) cfg builtinMetricsNd names computeReward rewards)
            (stateInverseNd ℝ) q.1 numSteps = .ok o ∧ Replays (kept c.maxNumObjects 128) cfg.initSteps numSteps r o q.2) recs (places Ss) ∧
        (c.dropRemainder = false → missing = []) ∧ missing.length ≤ c.numShards * ((c.dims devices).prod - 1) := by
  obtain ⟨Ss, h1, h2, recs, missing, h3, h4, h5, h6⟩ := C118_generator hagg hscen hdims hS hK h
  refine ⟨Ss, h1, recs, missing, h3, ?_, h5, h6⟩
  rw [places_scenarios, List.forall₂_map_right_iff] at h4
  refine Forall₂_mem h4 fun r q hq hr => ?_
  obtain ⟨S, hS', hq⟩ := List.mem_flatMap.1 hq
  obtain ⟨b, hb, rfl⟩ := List.mem_map.1 hq
  have hb := mem_indices.1 hb
  obtain ⟨s1, -, -, s2, -, s3⟩ := h2 S hS'
  have hsup : ∀ k, c.Provides k → S.Supports S.timestep.shape 91 k := fun k hk =>
    ⟨fun e => ⟨_, hk.1 e, s2⟩, fun e => ⟨_, _, (hk.2 e).2.1, (hk.2 e).2.2, s3 (hk.2 e).1⟩, fun _ => by omega⟩
  have hrew : ∀ e ∈ rewards, e.1 ∈ ["log_divergence", "overlap", "offroad", "kinematic_infeasibility"] ∧ S.Supports S.timestep.shape 91 e.1 :=
    fun e he => ⟨(hrewards e he).1, hsup _ (hrewards e he).2⟩
  obtain ⟨o, ho⟩ := C120_expert_succeeds (C105_state _) (C120_state_inverse _) hn hc (by omega) s1 ⟨b, hb⟩ names
    (fun k hk => ⟨(hnames k hk).1, hsup k (hnames k hk).2⟩) computeReward rewards hrew hk
  exact ⟨o, ho, replay_scenario hw s1 hfit names (fun k hk => hsup k (hnames k hk).2) computeReward rewards hrew ho hb hr⟩

/-- If the environment is configured for another number of objects than the data set, no rollout of a batch of the data set with a scenario in
it succeeds. -/
theorem C130_sizes_must_agree {read : F → List Record} {files : List F} {P p : Nat} {out : List (Except Err (StateNd ℝ))}
    (hagg : c.aggregateTimesteps = true) (hscen : c.batchByScenario = true) (hdims : ∀ b ∈ c.dims devices, b ≠ 0) (hS : 1 ≤ c.numShards)
    (hK : c.includeSdcPaths = true → 1 ≤ c.numPointsPerPath.getD 0) (h : GeneratorYields c devices read files P p out)
    {cfg : EnvConfig} (hn : cfg.maxNumObjects ≠ kept c.maxNumObjects 128) {S : StateNd ℝ} (hy : .ok S ∈ out)
    (dn : DynNd ℝ) (inv : InverseNd ℝ) (names : List String) (computeReward : Bool) (rewards : Dict ℝ) (numSteps : Nat) :
    rolloutLogByExpertSdcNd (baseEnvNd dn cfg builtinMetricsNd names computeReward rewards) inv S numSteps = .error .assertion := by
  obtain ⟨Ss, rfl, h2, -⟩ := C118_generator hagg hscen hdims hS hK h
  obtain ⟨S', hS', he⟩ := List.mem_map.1 hy
  cases he
  have hs := (h2 S hS').1
  have hr : resetNd cfg S = .error .assertion := by
    unfold resetNd
    rw [numObjects_shaped hs.log, exc_ok_bind, assertThat_error hn]
    rfl
  have he : rolloutEntries (baseEnvNd dn cfg builtinMetricsNd names computeReward rewards)
      (expertActorNd (K := Unit) (P := Unit) inv fun s => s.objectMetadata.isSdc) (fun k : Unit => (k, k)) () ActNd.zerosLike S () numSteps =
      .error .assertion := by
    unfold rolloutEntries
    rw [show (baseEnvNd dn cfg builtinMetricsNd names computeReward rewards).reset S = .error .assertion from hr]
    rfl
  unfold rolloutLogByExpertSdcNd rolloutNd
  rw [he]
  rfl

/-- Two processes with five files of two records each, four objects, paths of five points, batches of three on two devices: the environment
with all seven metrics and two rewards, warmed up on 11 steps and run for 80, replays what the generator yields. -/
example : ∃ (c : DatasetConfig) (out : List (Except Err (StateNd ℝ))), c.aggregateTimesteps = true ∧ c.batchByScenario = true ∧
    (∀ b ∈ c.dims 2, b ≠ 0) ∧ 1 ≤ c.numShards ∧ (c.includeSdcPaths = true → 1 ≤ c.numPointsPerPath.getD 0) ∧
    GeneratorYields c 2 (fun _ : Nat => [countingRecord 7 (some (2, 5)), countingRecord 7 (some (2, 5))]) [0, 1, 2, 3, 4] 2 1 out ∧
    ({ maxNumObjects := 4 } : EnvConfig).maxNumObjects = kept c.maxNumObjects 128 ∧
    ({ maxNumObjects := 4 } : EnvConfig).controlledObject ≠ .NON_SDC ∧ ({ maxNumObjects := 4 } : EnvConfig).initSteps + 80 ≤ 91 ∧
    (∀ k ∈ builtinMetricsNd.map Prod.fst, c.Provides k) := by
  let c : DatasetConfig := DatasetConfig.mk true true 7 (some 4) (some 2) (some 5) 3 [3] 2 true true true
  obtain ⟨out, h⟩ := C118_runs (c := c) (devices := 2)
    (fun _ : Nat => [countingRecord 7 (some (2, 5)), countingRecord 7 (some (2, 5))]) [0, 1, 2, 3, 4] 2 1 rfl (fun _ => ⟨rfl, rfl⟩)
    (by decide) (.inl rfl) (by
      intro f _ r hr
      simp only [List.mem_cons, List.not_mem_nil, or_false, or_self] at hr
      subst hr
      exact counting_complete 7 (some (2, 5)))
  exact ⟨c, out, rfl, rfl, by decide, by decide, fun _ => by decide, h, by decide, by decide, by decide,
    fun k _ => ⟨fun _ => by decide, fun _ => ⟨rfl, by decide, by decide⟩⟩⟩

end

end Waymax
