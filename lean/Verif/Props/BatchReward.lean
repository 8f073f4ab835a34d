import Verif.Model.BatchReward
import Verif.Spec.Specs
import Verif.Spec.BatchMetrics
import Verif.Props.Reward
import Verif.Props.Specs
import Verif.Props.BatchRoute
/-
C112: rewards of batches have the declared shape and hold each scenario's reward. C113: step types and discounts of batches.
-/

namespace Waymax

section
variable {pre : List Nat} {n T : Nat}

/-- The metric registered as `k` for batches computes, on the batch `S`, what the metric registered as `k` computes on each
scenario, one number per object. -/
def MetricAgrees [NeZero T] (regNd : Dict (StateNd ℝ → Except Err MetricNd)) (reg : Dict (Metric n T)) (pre : List Nat) (S : StateNd ℝ)
    (k : String) : Prop :=
  ∃ f m μ, regNd.get? k = some f ∧ f S = .ok m ∧ reg.get? k = some μ ∧ m.value.shape = pre ++ [n] ∧ m.valid.shape = pre ++ [n] ∧
    ∀ p, InRange pre p →
      μ (S.scenario n T p) = .ok (.perObject fun i => { value := m.value.get (p ++ [i.val]), valid := m.valid.get (p ++ [i.val]) })

theorem runMetricsNd_ok (reg : Dict (StateNd ℝ → Except Err MetricNd)) (s : StateNd ℝ) (names : List String)
    (h : ∀ k ∈ names, ∃ f m, reg.get? k = some f ∧ f s = .ok m) (acc : Dict MetricNd) :
    ∃ out, names.foldlM (fun results name =>
      match reg.get? name with
      | some m => do return results.set name (← m s)
      | none => (Except.error .valueError : Except Err (Dict MetricNd))) acc = .ok out ∧
    (∀ k ∈ names, ∀ f m, reg.get? k = some f → f s = .ok m → out.get? k = some m) ∧
    (∀ k, k ∉ names → out.get? k = acc.get? k) := by
  induction names generalizing acc with
  | nil => exact ⟨acc, rfl, by simp, fun _ _ => rfl⟩
  | cons a names ih =>
    obtain ⟨f, m, h1, h2⟩ := h a (by simp)
    obtain ⟨out, e, g1, g2⟩ := ih (fun k hk => h k (by simp [hk])) (acc.set a m)
    refine ⟨out, ?_, ?_, ?_⟩
    · rw [List.foldlM_cons]
      simp only [h1, h2, bind, Except.bind, pure, Except.pure]
      exact e
    · intro k hk f' m' h1' h2'
      by_cases hin : k ∈ names
      · exact g1 k hin f' m' h1' h2'
      · have hka : k = a := by
          rcases List.mem_cons.1 hk with h | h
          · exact h
          · exact absurd h hin
        subst hka
        rw [g2 k hin, Dict.get?_set, if_pos rfl]
        rw [h1] at h1'
        obtain rfl := Option.some.inj h1'
        rw [h2] at h2'
        exact congrArg some (Except.ok.inj h2')
    · intro k hk
      rw [List.mem_cons, not_or] at hk
      rw [g2 k hk.2, Dict.get?_set, if_neg hk.1]

theorem maskedValue_shaped {m : MetricNd} {sh : List Nat} (h1 : m.value.shape = sh) (h2 : m.valid.shape = sh) :
    ∃ v, m.maskedValue = .ok v ∧ v.shape = sh ∧
      ∀ idx, InRange sh idx → v.get idx = if m.valid.get idx = true then m.value.get idx else 0 :=
  zip_shaped (fun v (ok : Bool) => if ok then v else 0) h1 h2

theorem rewardLoopNd (all : Dict MetricNd) {sh : List Nat} {mask : Nd Bool} (hm : mask.shape = sh) (rewards : Dict ℝ)
    (vals : String → MetricNd)
    (h : ∀ e ∈ rewards, all.get? e.1 = some (vals e.1) ∧ (vals e.1).value.shape = sh ∧ (vals e.1).valid.shape = sh)
    (acc : Nd ℝ) (ha : acc.shape = sh) :
    ∃ r, rewards.foldlM (rewardAddNd all mask) acc = .ok r ∧ r.shape = sh ∧
      ∀ idx, InRange sh idx → r.get idx = acc.get idx + if mask.get idx = true then
        (rewards.map fun e => e.2 * if (vals e.1).valid.get idx = true then (vals e.1).value.get idx else 0).sum else 0 := by
  induction rewards generalizing acc with
  | nil => exact ⟨acc, rfl, ha, fun idx _ => by simp⟩
  | cons e rewards ih =>
    obtain ⟨h1, h2, h3⟩ := h e (by simp)
    obtain ⟨v, e1, s1, g1⟩ := maskedValue_shaped h2 h3
    obtain ⟨w, e2, s2, g2⟩ := zip_shaped (fun v (m : Bool) => v * if m then (1 : ℝ) else 0) s1 hm
    obtain ⟨acc', e3, s3, g3⟩ := zip_shaped (fun a b : ℝ => a + b) ha (y := w.map fun v => v * e.2) s2
    obtain ⟨r, e4, s4, g4⟩ := ih (fun e he => h e (by simp [he])) acc' s3
    refine ⟨r, ?_, s4, fun idx hidx => ?_⟩
    · rw [List.foldlM_cons]
      have : rewardAddNd all mask acc e = .ok acc' := by
        unfold rewardAddNd
        simp only [h1]
        rw [e1, exc_ok_bind, e2, exc_ok_bind, e3]
      rw [this, exc_ok_bind]
      exact e4
    · rw [g4 idx hidx, g3 idx hidx]
      simp only [Nd.map, g2 idx hidx, g1 idx hidx, List.map_cons, List.sum_cons]
      cases mask.get idx
      · simp
      · simp only [if_true, mul_one]; ring

/-! ### C112 -/

theorem linearRewardNd_ok [NeZero T] {regNd : Dict (StateNd ℝ → Except Err MetricNd)} {reg : Dict (Metric n T)} {S : StateNd ℝ}
    {rewards : Dict ℝ} (h : ∀ e ∈ rewards, MetricAgrees regNd reg pre S e.1) {mask : Nd Bool} (hm : mask.shape = pre ++ [n])
    {D : Type} (act : Fin n → Act D) :
    ∃ r, linearRewardNd regNd rewards S mask = .ok r ∧ r.data.shape = pre ++ [n] ∧
      r.dtype = (if rewards = [] then .bool else .float32) ∧
      ∀ p, InRange pre p → linearReward reg rewards (S.scenario n T p) act (fun i => mask.get (p ++ [i.val])) =
        .ok fun i => r.data.get (p ++ [i.val]) := by
  classical
  obtain ⟨all, e1, g1, -⟩ := runMetricsNd_ok regNd S (rewards.map Prod.fst) (by
    intro k hk
    obtain ⟨e, he, rfl⟩ := List.mem_map.1 hk
    obtain ⟨f, m, μ, h1, h2, -⟩ := h e he
    exact ⟨f, m, h1, h2⟩) []
  let vals : String → MetricNd := fun k => (all.get? k).getD { value := Nd.scalar 0, valid := Nd.scalar false }
  have hv : ∀ e ∈ rewards, ∃ f μ, regNd.get? e.1 = some f ∧ f S = .ok (vals e.1) ∧ all.get? e.1 = some (vals e.1) ∧
      reg.get? e.1 = some μ ∧ (vals e.1).value.shape = pre ++ [n] ∧ (vals e.1).valid.shape = pre ++ [n] ∧
      ∀ p, InRange pre p → μ (S.scenario n T p) =
        .ok (.perObject fun i => { value := (vals e.1).value.get (p ++ [i.val]), valid := (vals e.1).valid.get (p ++ [i.val]) }) := by
    intro e he
    obtain ⟨f, m, μ, h1, h2, h3, h4, h5, h6⟩ := h e he
    have h7 := g1 e.1 (List.mem_map.2 ⟨e, he, rfl⟩) f m h1 h2
    have h8 : vals e.1 = m := by simp only [vals, h7, Option.getD_some]
    rw [h8]
    exact ⟨f, μ, h1, h2, h7, h3, h4, h5, h6⟩
  obtain ⟨r, e2, s2, g2⟩ := rewardLoopNd all hm rewards vals (fun e he => by
    obtain ⟨f, μ, -, -, h3, -, h5, h6, -⟩ := hv e he
    exact ⟨h3, h5, h6⟩) { shape := mask.shape, get := fun _ => 0 } hm
  have e1' : runMetricsNd regNd S (rewards.map Prod.fst) = .ok all := e1
  refine ⟨{ data := r, dtype := if rewards.isEmpty then .bool else .float32 }, ?_, s2, ?_, fun p hp => ?_⟩
  · unfold linearRewardNd
    rw [e1', exc_ok_bind, e2, exc_ok_bind]
    rfl
  · cases rewards <;> simp
  · obtain ⟨r', hr'⟩ := C41_total reg rewards (S.scenario n T p) act (fun i => mask.get (p ++ [i.val])) (by
      intro e he
      obtain ⟨f, μ, -, -, -, h4, -, -, h7⟩ := hv e he
      exact ⟨μ, _, h4, h7 p hp⟩)
    rw [hr']
    obtain ⟨vs, h1, h2, h3⟩ := C41_linear_reward hr'
    congr 1
    funext i
    rw [g2 _ (hp.snoc i.isLt)]
    cases hmi : mask.get (p ++ [i.val])
    · rw [h3 i hmi]; simp
    · rw [h2 i hmi]
      simp only [if_true, zero_add]
      congr 1
      refine List.map_congr_left fun e he => ?_
      obtain ⟨f, μ, -, -, -, h4, -, -, h7⟩ := hv e he
      obtain ⟨m, h8, h9⟩ := h1 e he
      rw [h4] at h8
      obtain rfl := Option.some.inj h8
      rw [h7 p hp] at h9
      rw [← Except.ok.inj h9]
      rfl

theorem getControlMaskNd_ok {S : StateNd ℝ} (h : S.Shaped pre n T) {ct : ObjectType} (hc : ct ≠ .NON_SDC) :
    ∃ m, getControlMaskNd S.objectMetadata ct = .ok m ∧ m.shape = pre ++ [n] ∧
      ∀ p, getControlMask (S.scenario n T p).objectMetadata ct = .ok fun i => m.get (p ++ [i.val]) := by
  cases ct with
  | SDC => exact ⟨_, rfl, h.metadata.isSdc, fun p => rfl⟩
  | MODELED => exact ⟨_, rfl, h.metadata.isModeled, fun p => rfl⟩
  | VALID => exact ⟨_, rfl, h.metadata.isValid, fun p => rfl⟩
  | NON_SDC => exact absurd rfl hc

/-- The reward of a batch in the multi-agent environment, for metrics with one number per object: its shape is the batch shape
followed by the declared one, and it holds each scenario's rewards. -/
theorem C112_reward [NeZero T] {regNd : Dict (StateNd ℝ → Except Err MetricNd)} {reg : Dict (Metric n T)} {S : StateNd ℝ}
    (hS : S.Shaped pre n T) {cfg : EnvConfig} (hn : cfg.maxNumObjects = n) (hc : cfg.controlledObject ≠ .NON_SDC)
    (computeReward : Bool) {rewards : Dict ℝ} (h : ∀ e ∈ rewards, MetricAgrees regNd reg pre S e.1) {D : Type}
    (act : Fin n → Act D) :
    ∃ r, baseRewardNd regNd cfg computeReward rewards S = .ok r ∧ r.data.shape = pre ++ (baseRewardSpec cfg).shape ∧
      ∀ p, InRange pre p → envReward reg cfg computeReward rewards (S.scenario n T p) act =
        .ok fun i => r.data.get (p ++ [i.val]) := by
  unfold baseRewardNd envReward
  cases computeReward with
  | false =>
    refine ⟨_, rfl, ?_, fun p _ => rfl⟩
    show S.shape ++ _ = _
    rw [hS.shape_eq]
  | true =>
    obtain ⟨m, e1, s1, g1⟩ := getControlMaskNd_ok hS hc
    obtain ⟨r, e2, s2, -, g2⟩ := linearRewardNd_ok h s1 act
    refine ⟨r, ?_, ?_, fun p hp => ?_⟩
    · rw [if_pos rfl, e1, exc_ok_bind, e2]
    · rw [s2]; simp [baseRewardSpec, hn]
    · rw [if_pos rfl, g1 p, exc_ok_bind]
      exact g2 p hp

/-- The built-in per-object metrics agree with their one-scenario versions, so every reward made of these is covered. -/
theorem C112_builtin [NeZero T] {S : StateNd ℝ} (hS : S.Shaped pre n T) (ht : S.timestep.shape = [] ∨ S.timestep.shape = pre)
    {M : Nat} (hr : S.HasRoadgraph pre M) (hM : 0 < M) {k : String} (hk : k ∈ ["log_divergence", "overlap", "offroad"]) :
    MetricAgrees builtinMetricsNd (builtinMetrics (n := n) (T := T)) pre S k := by
  simp only [List.mem_cons, List.not_mem_nil, or_false] at hk
  rcases hk with rfl | rfl | rfl
  · obtain ⟨m, e, s1, s2, g⟩ := C108_log_divergence hS ht
    refine ⟨_, m, _, rfl, e, rfl, s1, s2, fun p hp => ?_⟩
    exact congrArg (fun r => Except.ok (MetricArr.perObject r)) (Except.ok.inj (g p hp))
  · obtain ⟨m, e, s1, s2, g⟩ := C108_overlap hS ht
    refine ⟨_, m, _, rfl, e, rfl, s1, s2, fun p hp => ?_⟩
    exact congrArg (fun r => Except.ok (MetricArr.perObject r)) (Except.ok.inj (g p hp))
  · obtain ⟨m, e, s1, s2, g⟩ := C108_offroad hS ht hr hM
    refine ⟨_, m, _, rfl, e, rfl, s1, s2, fun p hp => ?_⟩
    have := g p hp
    simp only [this, bind, Except.bind, pure, Except.pure]

/-- The reward of a batch in the planning environment: one number for each scenario, the reward of its SDC. -/
theorem C112_planning [NeZero T] {regNd : Dict (StateNd ℝ → Except Err MetricNd)} {reg : Dict (Metric n T)} {S : StateNd ℝ}
    (hS : S.Shaped pre n T) {cfg : EnvConfig} (hc : cfg.controlledObject = .SDC) (computeReward : Bool) {rewards : Dict ℝ}
    (h : ∀ e ∈ rewards, MetricAgrees regNd reg pre S e.1) {D : Type} (act : Fin n → Act D) :
    ∃ r, planRewardNd regNd cfg computeReward rewards S = .ok r ∧ r.data.shape = pre ++ planningRewardSpec.shape ∧
      ∀ p, InRange pre p → ∀ sdc : Fin n, (∀ i, ((S.scenario n T p).objectMetadata i).isSdc = true ↔ i = sdc) →
        ∃ f, envReward reg cfg computeReward rewards (S.scenario n T p) act = .ok f ∧ r.data.get p = f sdc := by
  unfold planRewardNd envReward
  cases computeReward with
  | false =>
    refine ⟨_, rfl, ?_, fun p _ sdc _ => ⟨_, rfl, rfl⟩⟩
    show S.shape ++ _ = _
    rw [hS.shape_eq]
  | true =>
    obtain ⟨m, e1, s1, g1⟩ := getControlMaskNd_ok hS (ct := cfg.controlledObject) (by rw [hc]; simp)
    obtain ⟨r, e2, s2, -, g2⟩ := linearRewardNd_ok h s1 act
    obtain ⟨⟨q, e3, s3, g3⟩, -⟩ := C84_select pre n [] r.data S.objectMetadata.isSdc s2 hS.metadata.isSdc
    refine ⟨{ data := q, dtype := r.dtype }, ?_, s3, fun p hp sdc hsdc => ?_⟩
    · rw [if_pos rfl, e1, exc_ok_bind, e2, exc_ok_bind, e3, exc_ok_bind]
      rfl
    · refine ⟨fun i => r.data.get (p ++ [i.val]), ?_, ?_⟩
      · rw [if_pos rfl, g1 p, exc_ok_bind]
        exact g2 p hp
      · have := g3 p [] sdc.val hp (by
          refine ⟨sdc.isLt, ?_⟩
          intro j hj
          rw [← Fin.ext_iff (a := ⟨j, hj⟩) (b := sdc)]
          exact hsdc ⟨j, hj⟩)
        simpa using this

/-! ### C112: data types -/

/-- C112, data types, full expectation: rewards are of the declared data type. -/
def C112_dtype_full : Prop :=
  ∀ (pre : List Nat) (n T : Nat) (_ : NeZero T) (S : StateNd ℝ) (cfg : EnvConfig) (computeReward : Bool) (rewards stored : Dict ℝ),
    S.Shaped pre n T → cfg.maxNumObjects = n → linearRewardInit (builtinMetrics (n := n) (T := T)) rewards = .ok stored →
    ∀ r, baseRewardNd builtinMetricsNd cfg computeReward stored S = .ok r → r.dtype = (baseRewardSpec cfg).dtype

/-- The exact data type. -/
theorem C112_dtype {regNd : Dict (StateNd ℝ → Except Err MetricNd)} {cfg : EnvConfig} {computeReward : Bool} {rewards : Dict ℝ}
    {S : StateNd ℝ} {r : TypedNd} (h : baseRewardNd regNd cfg computeReward rewards S = .ok r) :
    r.dtype = if computeReward = true ∧ rewards = [] then .bool else (baseRewardSpec cfg).dtype := by
  unfold baseRewardNd at h
  cases computeReward with
  | false =>
    simp only [Bool.false_eq_true, if_false, Except.ok.injEq] at h
    rw [← h]
    simp
  | true =>
    simp only [if_true, linearRewardNd, bind_eq_ok] at h
    obtain ⟨m, -, all, -, d, -, h⟩ := h
    obtain rfl := Except.ok.inj h
    cases rewards <;> simp [baseRewardSpec]

/-- An environment without reward terms is accepted, and returns booleans instead of numbers. -/
theorem C112_dtype_violated : ¬ C112_dtype_full := by
  intro h
  have hr : baseRewardNd builtinMetricsNd { maxNumObjects := 1, controlledObject := .SDC } true [] exTwo =
      .ok { data := { shape := exTwo.objectMetadata.isSdc.shape, get := fun _ => 0 }, dtype := .bool } := rfl
  have := h [2] 1 3 inferInstance exTwo { maxNumObjects := 1, controlledObject := .SDC } true [] [] exTwo_shaped rfl rfl _ hr
  cases this

/-- What holds: with at least one reward term, or with rewards switched off, the data type is the declared one. Missing: no reward
terms. -/
theorem C112_dtype_partial {regNd : Dict (StateNd ℝ → Except Err MetricNd)} {cfg : EnvConfig} {computeReward : Bool} {rewards : Dict ℝ}
    {S : StateNd ℝ} {r : TypedNd} (h : baseRewardNd regNd cfg computeReward rewards S = .ok r)
    (hne : computeReward = false ∨ rewards ≠ []) : r.dtype = (baseRewardSpec cfg).dtype := by
  rw [C112_dtype h, if_neg]
  rintro ⟨h1, h2⟩
  rcases hne with h3 | h3
  · rw [h1] at h3; cases h3
  · exact h3 h2

/-! ### C113 -/

/-- With one clock for the whole batch, the wrapper always finds all scenarios finished or none: `LAST` exactly when the last logged
step is reached, `MID` before. Batches with mixed step types do not occur. The discount is 1 everywhere: one number for each scenario at the last step,
a single number before. -/
theorem C113_step_type {α : Type} {S : StateNd α} (h : S.Shaped pre n T) (ht : S.timestep.shape = []) (hb : ∃ p, InRange pre p) :
    ∃ d, dmOutcome S = .ok (if (T : Int) ≤ S.timestep.get [] + 1 then .LAST else .MID, d) ∧ d.dtype = .float32 ∧
      d.data.shape = (if (T : Int) ≤ S.timestep.get [] + 1 then pre else []) ∧ ∀ idx, InRange d.data.shape idx → d.data.get idx = 1 := by
  classical
  obtain ⟨h1, -, f, e, s, g⟩ := C105_flags h (Or.inl ht)
  obtain ⟨done, e2, s2, g2⟩ := zip_shaped (fun a b => a || b) h1 s
  have hflag : ∀ p, InRange pre p → done.get p = decide ((T : Int) ≤ S.timestep.get [] + 1) := by
    intro p hp
    rw [g2 p hp, g p hp]
    have : (terminationNd S).get p = false := rfl
    rw [this, Bool.false_or]
    simp only [truncation, SimState.remainingTimesteps, StateNd.scenario, ht, List.length_nil, List.take_zero]
    congr 1
    exact propext ⟨fun h => by omega, fun h => by omega⟩
  unfold dmOutcome
  rw [e, exc_ok_bind, e2, exc_ok_bind, s2]
  dsimp only
  by_cases hT : (T : Int) ≤ S.timestep.get [] + 1
  · rw [if_pos (fun idx hidx => by rw [hflag idx hidx]; simpa using hT), if_pos hT]
    exact ⟨_, rfl, rfl, by rw [if_pos hT]; exact h1, fun idx _ => rfl⟩
  · obtain ⟨p, hp⟩ := hb
    have hno : ∀ idx, InRange pre idx → ¬ done.get idx = true := fun idx hidx => by rw [hflag idx hidx]; simpa using hT
    rw [if_neg (fun hall => hno p hp (hall p hp)), if_neg (fun ⟨idx, h1, h2⟩ => hno idx h1 h2), if_neg hT]
    exact ⟨_, rfl, rfl, by rw [if_neg hT]; rfl, fun idx _ => rfl⟩

/-- The declared discount is one number between 0 and 1. -/
theorem C113_discount_spec : ∃ s, discountSpec = .ok s ∧ s.shape = [] ∧ s.dtype = .float32 ∧
    ∀ x : ℝ, s.Allows (fun _ => x) ↔ 0 ≤ x ∧ x ≤ 1 := by
  refine ⟨_, create_eq (sh := []) (lo := Nd.scalar 0) (hi := Nd.scalar 1) rfl rfl (fun _ _ => zero_le_one), rfl, rfl, fun x => ?_⟩
  unfold BoundedSpec.Allows
  constructor
  · intro h
    have := h [] .nil
    simp only [Nd.scalar] at this
    exact ⟨by exact_mod_cast this.1, by exact_mod_cast this.2⟩
  · rintro ⟨h1, h2⟩ idx _
    simp only [Nd.scalar]
    exact ⟨by exact_mod_cast h1, by exact_mod_cast h2⟩

/-- Full expectation: the discount of a batch has the batch shape followed by the declared shape at every step. -/
def C113_shape_full : Prop :=
  ∀ (pre : List Nat) (n T : Nat) (S : StateNd ℝ) (s : BoundedSpec), S.Shaped pre n T → S.timestep.shape = [] → discountSpec = .ok s →
    ∀ k d, dmOutcome S = .ok (k, d) → d.data.shape = pre ++ s.shape

/-- Before the last step it is a single number for the whole batch. -/
theorem C113_shape_violated : ¬ C113_shape_full := by
  intro h
  obtain ⟨s, hs, h0, -⟩ := C113_discount_spec
  obtain ⟨d, e, -, hd, -⟩ := C113_step_type (pre := [2]) (n := 1) (T := 3) (S := { exTwo with timestep := Nd.scalar 0 })
    ⟨exTwo_shaped.sim, exTwo_shaped.log, exTwo_shaped.metadata⟩ rfl ⟨[0], .cons (by omega) .nil⟩
  have h1 := h [2] 1 3 { exTwo with timestep := Nd.scalar 0 } s ⟨exTwo_shaped.sim, exTwo_shaped.log, exTwo_shaped.metadata⟩ rfl hs _ _ e
  rw [hd, h0] at h1
  simp [Nd.scalar] at h1

/-- One scenario without batch axes, and every batch at its last step, have a discount of the declared shape. -/
theorem C113_shape_partial {S : StateNd ℝ} (h : S.Shaped pre n T) (ht : S.timestep.shape = []) (hb : ∃ p, InRange pre p)
    (hp : pre = [] ∨ (T : Int) ≤ S.timestep.get [] + 1) :
    ∃ k d s, dmOutcome S = .ok (k, d) ∧ discountSpec = .ok s ∧ d.data.shape = pre ++ s.shape ∧ d.dtype = s.dtype := by
  obtain ⟨s, hs, h0, h1, -⟩ := C113_discount_spec
  obtain ⟨d, e, h2, hd, -⟩ := C113_step_type h ht hb
  refine ⟨_, d, s, e, hs, ?_, h2.trans h1.symm⟩
  rw [hd, h0, List.append_nil]
  rcases hp with rfl | hp
  · split <;> rfl
  · rw [if_pos hp]

/-- With one clock for each scenario, the wrapper rejects exactly the batches of which some scenarios are finished and others
not. -/
theorem C113_mixed_rejected {α : Type} {S : StateNd α} (h : S.Shaped pre n T) (ht : S.timestep.shape = pre) :
    dmOutcome S = .error .notImplemented ↔
      (∃ p, InRange pre p ∧ (T : Int) ≤ S.timestep.get p + 1) ∧ ∃ p, InRange pre p ∧ S.timestep.get p + 1 < (T : Int) := by
  classical
  obtain ⟨h1, -, f, e, s, g⟩ := C105_flags h (Or.inr ht)
  obtain ⟨done, e2, s2, g2⟩ := zip_shaped (fun a b => a || b) h1 s
  have hflag : ∀ p, InRange pre p → (done.get p = true ↔ (T : Int) ≤ S.timestep.get p + 1) := by
    intro p hp
    rw [g2 p hp, g p hp]
    have : (terminationNd S).get p = false := rfl
    rw [this, Bool.false_or]
    have hl : p.take pre.length = p := by rw [hp.length]; exact List.take_length
    simp only [truncation, SimState.remainingTimesteps, StateNd.scenario, ht, hl, decide_eq_true_eq]
    omega
  unfold dmOutcome
  rw [e, exc_ok_bind, e2, exc_ok_bind, s2]
  dsimp only
  constructor
  · intro hr
    split at hr
    · cases hr
    · rename_i hall
      split at hr
      · rename_i hany
        obtain ⟨p, hp, hd⟩ := hany
        refine ⟨⟨p, hp, (hflag p hp).1 hd⟩, ?_⟩
        by_contra hcon
        push Not at hcon
        exact hall fun q hq => (hflag q hq).2 (hcon q hq)
      · cases hr
  · rintro ⟨⟨p, hp, h1⟩, q, hq, h2⟩
    rw [if_neg, if_pos ⟨p, hp, (hflag p hp).2 h1⟩]
    intro hall
    have := (hflag q hq).1 (hall q hq)
    omega

end

/-- Two scenarios with a road: the default reward has two terms that satisfy the hypotheses of `C112_reward`, and the reward has
shape `(2, 1)`. -/
example : ∃ r, baseRewardNd builtinMetricsNd { maxNumObjects := 1 } true [("overlap", -1), ("offroad", -1)] exTwoMap = .ok r ∧
    r.data.shape = [2, 1] ∧ r.dtype = .float32 := by
  obtain ⟨r, e, s, -⟩ := C112_reward (reg := builtinMetrics (n := 1) (T := 3)) (D := Unit) exTwoMap_shaped
    (cfg := { maxNumObjects := 1 }) rfl (by simp) true (rewards := [("overlap", -1), ("offroad", -1)]) (by
      intro e he
      refine C112_builtin exTwoMap_shaped (Or.inr rfl) exTwoMap_roadgraph (by decide) ?_
      simp only [List.mem_cons, List.not_mem_nil, or_false] at he
      rcases he with rfl | rfl <;> simp) (fun _ => ⟨(), true⟩)
  exact ⟨r, e, s, C112_dtype_partial e (Or.inr (by simp))⟩

/-- Two scenarios at step 2 of 3 are at their end, at step 0 they are not, and with the clocks 0 and 2 the wrapper gives up. -/
example : (∃ d, dmOutcome { exTwo with timestep := Nd.scalar 2 } = .ok (.LAST, d)) ∧
    (∃ d, dmOutcome { exTwo with timestep := Nd.scalar 0 } = .ok (.MID, d)) ∧
    dmOutcome { exTwo with timestep := { shape := [2], get := fun idx => 2 * (idx.getD 0 0 : Int) } } = .error .notImplemented := by
  have hp : ∀ k, k < 2 → InRange [2] [k] := fun k hk => .cons hk .nil
  refine ⟨?_, ?_, ?_⟩
  · obtain ⟨d, h, -⟩ := C113_step_type (pre := [2]) (n := 1) (T := 3) (S := { exTwo with timestep := Nd.scalar 2 })
      ⟨exTwo_shaped.sim, exTwo_shaped.log, exTwo_shaped.metadata⟩ rfl ⟨[0], hp 0 (by omega)⟩
    exact ⟨d, h⟩
  · obtain ⟨d, h, -⟩ := C113_step_type (pre := [2]) (n := 1) (T := 3) (S := { exTwo with timestep := Nd.scalar 0 })
      ⟨exTwo_shaped.sim, exTwo_shaped.log, exTwo_shaped.metadata⟩ rfl ⟨[0], hp 0 (by omega)⟩
    exact ⟨d, h⟩
  · refine (C113_mixed_rejected (pre := [2]) (n := 1) (T := 3)
      (S := { exTwo with timestep := { shape := [2], get := fun idx => 2 * (idx.getD 0 0 : Int) } })
      ⟨exTwo_shaped.sim, exTwo_shaped.log, exTwo_shaped.metadata⟩ rfl).2 ?_
    exact ⟨⟨[1], hp 1 (by omega), by decide⟩, ⟨[0], hp 0 (by omega), by decide⟩⟩

end Waymax
