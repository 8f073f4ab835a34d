import Verif.Props.PlanExpert
import Verif.Props.ActionShape
import Verif.Props.BatchRolloutAgrees
import Verif.Props.BatchExpert
import Verif.Props.TimeTensors
/-
C161: the expert in the planning environment must be built with the environment's own dynamics.
-/

namespace Waymax

theorem broadcastRev_rank : ∀ {s t r : List Nat}, Nd.broadcastRev s t = some r → s.length ≤ r.length ∧ t.length ≤ r.length
  | [], t, r, h => by simp only [Nd.broadcastRev, Option.some.injEq] at h; subst h; simp
  | a :: s, [], r, h => by simp only [Nd.broadcastRev, Option.some.injEq] at h; subst h; simp
  | a :: s, b :: t, r, h => by
    simp only [Nd.broadcastRev, Option.bind_eq_bind, Option.bind_eq_some_iff] at h
    obtain ⟨q, hq, h⟩ := h
    have ih := broadcastRev_rank hq
    have : r.length = q.length + 1 := by
      split at h
      · cases h; rfl
      · split at h
        · cases h; rfl
        · split at h
          · cases h; rfl
          · cases h
    simp only [List.length_cons]
    omega

theorem zip_rank {β γ δ : Type} {f : β → γ → δ} {x : Nd β} {y : Nd γ} {z : Nd δ} (h : Nd.zip f x y = .ok z) :
    x.shape.length ≤ z.shape.length ∧ y.shape.length ≤ z.shape.length := by
  unfold Nd.zip at h
  split at h
  · rename_i s hs
    cases h
    unfold Nd.broadcastShape at hs
    rw [Option.map_eq_some_iff] at hs
    obtain ⟨r, hr, rfl⟩ := hs
    have := broadcastRev_rank hr
    simpa using this
  · cases h

theorem where3_rank {β : Type} {c : Nd Bool} {a b z : Nd β} (h : Nd.where3 c a b = .ok z) : b.shape.length ≤ z.shape.length := by
  unfold Nd.where3 at h
  obtain ⟨ab, h1, h2⟩ := bind_eq_ok.1 h
  exact le_trans (zip_rank h1).2 (zip_rank h2).2

theorem deltaGlobal_rank {P : DeltaParams} {a : ActNd ℝ} {t : TrajNd ℝ} {u : UpdNd ℝ} (h : deltaGlobalUpdateNd P a t = .ok u) :
    a.valid.shape.length ≤ u.valid.shape.length := by
  unfold deltaGlobalUpdateNd at h
  dsimp only at h
  obtain ⟨_, _, h⟩ := bind_eq_ok.1 h
  obtain ⟨_, _, h⟩ := bind_eq_ok.1 h
  obtain ⟨_, _, h⟩ := bind_eq_ok.1 h
  obtain ⟨_, _, h⟩ := bind_eq_ok.1 h
  obtain ⟨v, hv, h⟩ := bind_eq_ok.1 h
  cases h
  exact (zip_rank hv).2

/-- No built-in model drops axes of the validity array. -/
theorem builtin_rank (d : BuiltinDyn) {a : ActNd ℝ} {t : TrajNd ℝ} {u : UpdNd ℝ} (h : d.model.computeUpdate a t = .ok u) :
    a.valid.shape.length ≤ u.valid.shape.length := by
  cases d with
  | state =>
    simp only [BuiltinDyn.model, stateNd, Except.ok.injEq] at h
    subst h
    exact le_refl _
  | deltaGlobal P => exact deltaGlobal_rank h
  | deltaLocal P =>
    change deltaLocalUpdateNd P a t = .ok u at h
    unfold deltaLocalUpdateNd at h
    obtain ⟨_, _, h⟩ := bind_eq_ok.1 h
    dsimp only at h
    obtain ⟨_, _, h⟩ := bind_eq_ok.1 h
    obtain ⟨_, _, h⟩ := bind_eq_ok.1 h
    obtain ⟨v, hv, h⟩ := bind_eq_ok.1 h
    exact le_trans (zip_rank hv).2 (deltaGlobal_rank h)
  | bicycle P =>
    change bicycleUpdateNd P a t = .ok u at h
    unfold bicycleUpdateNd at h
    dsimp only at h
    iterate 14 obtain ⟨_, _, h⟩ := bind_eq_ok.1 h
    obtain ⟨v, hv, h⟩ := bind_eq_ok.1 h
    cases h
    exact (zip_rank hv).2

section
variable {X K P : Type} {pre : List Nat} {n T : Nat} [NeZero T]

/-- Actions with a row for each object, as the expert built with a plain dynamics model gives, are rejected by every step of the planning
environment, for every built-in dynamics model, every batch and all sim agents. -/
theorem C161_object_actions_rejected {E : PlanEnvNd X K P} {d : BuiltinDyn} (hd : E.dynamics = d.model) (split : K → Nat → List K)
    {s : PlanStateNd X} (hs : s.sim.Shaped pre n T) {a : ActNd ℝ} (ha : a.valid.shape = pre ++ [n, 1]) (rng : Option K) :
    ∃ e, planStepNd E split s a rng = .error e := by
  cases hp : planStepNd E split s a rng with
  | error e => exact ⟨e, rfl⟩
  | ok s' =>
    exfalso
    unfold planStepNd at hp
    obtain ⟨cur, -, hp⟩ := bind_eq_ok.1 hp
    obtain ⟨u, hu, hp⟩ := bind_eq_ok.1 hp
    obtain ⟨pa, hpa, hp⟩ := bind_eq_ok.1 hp
    obtain ⟨ov, -, hp⟩ := bind_eq_ok.1 hp
    dsimp only at hp
    obtain ⟨_, _, hp⟩ := bind_eq_ok.1 hp
    obtain ⟨mg, hmg, hp⟩ := bind_eq_ok.1 hp
    obtain ⟨tr, htr, -⟩ := bind_eq_ok.1 hp
    have h1 : pre.length + 3 ≤ u.valid.shape.length := by
      unfold planningUpdateNd at hu
      obtain ⟨k, -, hu⟩ := bind_eq_ok.1 hu
      obtain ⟨da, -, hu⟩ := bind_eq_ok.1 hu
      obtain ⟨va, hva, hu⟩ := bind_eq_ok.1 hu
      dsimp only at hu
      obtain ⟨_, _, hu⟩ := bind_eq_ok.1 hu
      rw [hd] at hu
      have := builtin_rank d hu
      unfold Nd.repeatBeforeLast at hva
      obtain ⟨_, _, hva⟩ := bind_eq_ok.1 hva
      cases hva
      simp only [ha, List.length_append, List.length_dropLast, List.length_cons, List.length_nil] at this
      omega
    have h2 : pa.valid = u.valid := by
      unfold UpdNd.asAction at hpa
      obtain ⟨_, _, hpa⟩ := bind_eq_ok.1 hpa
      obtain ⟨_, _, hpa⟩ := bind_eq_ok.1 hpa
      obtain ⟨_, _, hpa⟩ := bind_eq_ok.1 hpa
      obtain ⟨_, _, hpa⟩ := bind_eq_ok.1 hpa
      cases hpa
      rfl
    have hloop : ∀ (es : List (SimAgentNd X K P × X × P × Option K)) (acc r : MergedNd X) (ok : Nd Bool),
        es.foldlM (mergeSimAgentNd s ok) acc = .ok r → acc.action.valid.shape.length ≤ r.action.valid.shape.length := by
      intro es
      induction es with
      | nil =>
        intro acc r ok h
        cases h
        exact le_refl _
      | cons e es ih =>
        intro acc r ok h
        rw [List.foldlM_cons] at h
        obtain ⟨b, hb, h⟩ := bind_eq_ok.1 h
        refine le_trans ?_ (ih b r ok h)
        unfold mergeSimAgentNd at hb
        obtain ⟨_, _, hb⟩ := bind_eq_ok.1 hb
        obtain ⟨_, _, hb⟩ := bind_eq_ok.1 hb
        obtain ⟨_, _, hb⟩ := bind_eq_ok.1 hb
        obtain ⟨v, hv, hb⟩ := bind_eq_ok.1 hb
        obtain ⟨_, _, hb⟩ := bind_eq_ok.1 hb
        cases hb
        exact where3_rank hv
    have h3 := hloop _ _ _ _ hmg
    dsimp only at h3
    rw [h2] at h3
    unfold DynNd.forward at htr
    obtain ⟨_, hc, _⟩ := bind_eq_ok.1 htr
    have hc := congrArg List.length (of_assertThat hc)
    unfold TrajNd.shape ActNd.shape at hc
    rw [hs.sim.x] at hc
    simp only [List.length_dropLast, List.length_append, List.length_cons, List.length_nil] at hc
    omega

/-- So a rollout of that expert fails, for every batch, every number of steps and all sim agents. -/
theorem C161_plain_expert_fails {D : Type} {E : PlanEnvNd X K P} {d : BuiltinDyn} (hd : E.dynamics = d.model) {inv : InverseNd ℝ} {dim : Nat}
    {row : (Nat → ℝ) → D} {d1 : DynamicsModel ℝ D n} (hi : inv.Refines n dim row d1) (splitEnv : K → Nat → List K)
    (reg : Dict (StateNd ℝ → Except Err MetricNd)) (names : List String) (computeReward : Bool) {J Q : Type} (split : J → J × J)
    (params : Q) {S : StateNd ℝ} (hS : S.Shaped pre n T) (rng : J) (numSteps : Nat) :
    ∃ e, planRolloutNd E splitEnv reg names computeReward (plainExpertNd inv) split params S rng numSteps = .error e := by
  cases hp : planRolloutNd E splitEnv reg names computeReward (plainExpertNd inv) split params S rng numSteps with
  | error e => exact ⟨e, rfl⟩
  | ok o =>
    exfalso
    unfold planRolloutNd at hp
    obtain ⟨es, hes, -⟩ := bind_eq_ok.1 hp
    unfold rolloutEntries at hes
    obtain ⟨s0, h0, hes⟩ := bind_eq_ok.1 hes
    dsimp only at hes
    obtain ⟨r, hr, hes⟩ := bind_eq_ok.1 hes
    cases numSteps with
    | zero =>
      cases hr
      cases hes
    | succ m =>
      unfold scan at hr
      obtain ⟨c1, hc1, -⟩ := bind_eq_ok.1 hr
      unfold rolloutStepE at hc1
      obtain ⟨out, hout, hc1⟩ := bind_eq_ok.1 hc1
      obtain ⟨s1, hs1, -⟩ := bind_eq_ok.1 hc1
      have hsim : ∃ sim, resetNd E.cfg S = .ok sim ∧ s0.sim = sim := by
        change planResetNd E splitEnv S none = .ok s0 at h0
        unfold planResetNd at h0
        obtain ⟨sim, h1, h0⟩ := bind_eq_ok.1 h0
        cases h0
        exact ⟨sim, h1, rfl⟩
      obtain ⟨sim, hreset, rfl⟩ := hsim
      have hf := (reset_follows hS hreset).1
      obtain ⟨a, ea, sa, -⟩ := C120_expert_action hi hf.shaped hf.time
      change (inferExpertActionNd inv s0.sim >>= fun action => _) = .ok out at hout
      rw [ea, exc_ok_bind] at hout
      cases hout
      obtain ⟨e, he⟩ := C161_object_actions_rejected hd splitEnv hf.shaped (a := a) sa.valid none
      change planStepNd E splitEnv s0 a none = .ok s1 at hs1
      rw [he] at hs1
      cases hs1

end

end Waymax
