import Verif.Spec.Specs
import Verif.Props.BatchTime
/-
C110: the declared action space is the accepted one. C111: declared limits.
-/

namespace Waymax

/-! ### Bounded arrays -/

theorem vecOf_get (l : List ℝ) (i : Nat) : (vecOf l).get [i] = ((l.getD i 0 : ℝ) : EReal) := rfl

theorem inRange_one {d : Nat} {idx : List Nat} (h : InRange [d] idx) : ∃ i < d, idx = [i] := by
  unfold InRange at h
  cases h with
  | cons h1 h2 => cases h2; exact ⟨_, h1, rfl⟩

open Classical in
theorem create_eq {sh : List Nat} {dt : DType} {lo hi : Nd EReal} (h1 : lo.shape = sh) (h2 : hi.shape = sh)
    (h : ∀ idx, InRange sh idx → lo.get idx ≤ hi.get idx) :
    BoundedSpec.create sh dt lo hi = .ok { shape := sh, dtype := dt, minimum := lo, maximum := hi } := by
  unfold BoundedSpec.create
  rw [assertThat_ok (by rw [h1]; exact broadcastShape_self _), exc_ok_bind, assertThat_ok (by rw [h2]; exact broadcastShape_self _),
    exc_ok_bind, assertThat_ok]
  · rfl
  · intro idx hidx
    rw [h1, h2, broadcastIdx_self hidx]
    exact h idx hidx

theorem create_vec {dt : DType} {lo hi : List ℝ} (hl : lo.length = hi.length) :
    (∀ i, i < lo.length → lo.getD i 0 ≤ hi.getD i 0) →
      BoundedSpec.create [lo.length] dt (vecOf lo) (vecOf hi) =
        .ok { shape := [lo.length], dtype := dt, minimum := vecOf lo, maximum := vecOf hi } := by
  intro h
  have h1 : (vecOf lo).shape = [lo.length] := rfl
  have h2 : (vecOf hi).shape = [lo.length] := by rw [hl]; rfl
  refine create_eq h1 h2 fun idx hidx => ?_
  obtain ⟨i, hi', rfl⟩ := inRange_one hidx
  rw [vecOf_get, vecOf_get]
  exact EReal.coe_le_coe_iff.2 (h i hi')

open Classical in
theorem create_vec_error {dt : DType} {lo hi : List ℝ} (hl : lo.length = hi.length) {i : Nat} (hi' : i < lo.length)
    (h : ¬ lo.getD i 0 ≤ hi.getD i 0) : BoundedSpec.create [lo.length] dt (vecOf lo) (vecOf hi) = .error .valueError := by
  have h1 : (vecOf lo).shape = [lo.length] := rfl
  have h2 : (vecOf hi).shape = [lo.length] := by rw [hl]; rfl
  unfold BoundedSpec.create
  rw [assertThat_ok (by rw [h1]; exact broadcastShape_self _), exc_ok_bind, assertThat_ok (by rw [h2]; exact broadcastShape_self _),
    exc_ok_bind, assertThat_error]
  · rfl
  · intro hall
    have hidx : InRange [lo.length] [i] := .cons hi' .nil
    have := hall [i] hidx
    rw [h1, h2, broadcastIdx_self hidx, vecOf_get, vecOf_get, EReal.coe_le_coe_iff] at this
    exact h this

theorem allows_vec {dt : DType} {lo hi : List ℝ} (hl : lo.length = hi.length) (f : List Nat → ℝ) :
    BoundedSpec.Allows { shape := [lo.length], dtype := dt, minimum := vecOf lo, maximum := vecOf hi } f ↔
      ∀ i < lo.length, lo.getD i 0 ≤ f [i] ∧ f [i] ≤ hi.getD i 0 := by
  have h1 : (vecOf lo).shape = [lo.length] := rfl
  have h2 : (vecOf hi).shape = [lo.length] := by rw [hl]; rfl
  unfold BoundedSpec.Allows
  constructor
  · intro h i hi'
    have hidx : InRange [lo.length] [i] := .cons hi' .nil
    have := h [i] hidx
    simp only [h1, h2, broadcastIdx_self hidx, vecOf_get, EReal.coe_le_coe_iff] at this
    exact this
  · intro h idx hidx
    obtain ⟨i, hi', rfl⟩ := inRange_one hidx
    simp only [h1, h2]
    rw [broadcastIdx_self (s := [lo.length]) hidx, vecOf_get, vecOf_get, EReal.coe_le_coe_iff, EReal.coe_le_coe_iff]
    exact h i hi'

/-! ### C110: dynamics models -/

/-- Every dynamics model with sane limits declares an action space: `dim` numbers, between the limits it was built with. -/
theorem C110_dynamics_spec (d : BuiltinDyn) (h : d.SaneLimits) :
    ∃ s, d.spec = .ok s ∧ s.shape = [d.dim] ∧ ∀ f, s.Allows f ↔ d.Within fun k => f [k] := by
  cases d with
  | state =>
    refine ⟨{ shape := [5], dtype := .float32, minimum := Nd.scalar ⊥, maximum := Nd.scalar ⊤ }, ?_, rfl, ?_⟩
    · unfold BuiltinDyn.spec stateSpec BoundedSpec.create
      simp [Nd.scalar, assertThat, Nd.broadcastShape, Nd.broadcastRev, bind, Except.bind, pure, Except.pure]
    · intro f
      simp [BoundedSpec.Allows, BuiltinDyn.Within, Nd.scalar]
  | deltaGlobal P =>
    obtain ⟨h1, h2, h3⟩ := h
    refine ⟨_, create_vec (lo := [-P.maxDx, -P.maxDy, -P.maxDyaw]) (hi := [P.maxDx, P.maxDy, P.maxDyaw]) rfl ?_, rfl, fun f => ?_⟩
    · intro i hi
      have : i < 3 := hi
      interval_cases i <;> simp <;> linarith
    · rw [allows_vec (lo := [-P.maxDx, -P.maxDy, -P.maxDyaw]) (hi := [P.maxDx, P.maxDy, P.maxDyaw]) rfl]
      simp only [BuiltinDyn.Within, abs_le]
      constructor
      · intro h
        exact ⟨h 0 (by simp), h 1 (by simp), h 2 (by simp)⟩
      · rintro ⟨a, b, c⟩ i hi
        have : i < 3 := hi
        interval_cases i
        · exact a
        · exact b
        · exact c
  | deltaLocal P =>
    obtain ⟨h1, h2, h3⟩ := h
    refine ⟨_, create_vec (lo := [-P.maxDx, -P.maxDy, -P.maxDyaw]) (hi := [P.maxDx, P.maxDy, P.maxDyaw]) rfl ?_, rfl, fun f => ?_⟩
    · intro i hi
      have : i < 3 := hi
      interval_cases i <;> simp <;> linarith
    · rw [allows_vec (lo := [-P.maxDx, -P.maxDy, -P.maxDyaw]) (hi := [P.maxDx, P.maxDy, P.maxDyaw]) rfl]
      simp only [BuiltinDyn.Within, abs_le]
      constructor
      · intro h
        exact ⟨h 0 (by simp), h 1 (by simp), h 2 (by simp)⟩
      · rintro ⟨a, b, c⟩ i hi
        have : i < 3 := hi
        interval_cases i
        · exact a
        · exact b
        · exact c
  | bicycle P =>
    have key : ∀ a b : ℝ, 0 ≤ a → 0 ≤ b → ∃ s, BoundedSpec.create [2] .float32 (vecOf [-a, -b]) (vecOf [a, b]) = .ok s ∧
        s.shape = [2] ∧ ∀ f, s.Allows f ↔ |f [0]| ≤ a ∧ |f [1]| ≤ b := by
      intro a b ha hb
      refine ⟨_, create_vec (lo := [-a, -b]) (hi := [a, b]) rfl ?_, rfl, fun f => ?_⟩
      · intro i hi
        have : i < 2 := hi
        interval_cases i <;> simp <;> linarith
      · rw [allows_vec (lo := [-a, -b]) (hi := [a, b]) rfl]
        simp only [abs_le]
        constructor
        · intro h
          exact ⟨h 0 (by simp), h 1 (by simp)⟩
        · rintro ⟨a, b⟩ i hi
          have : i < 2 := hi
          interval_cases i
          · exact a
          · exact b
    simp only [BuiltinDyn.spec, bicycleSpec, BuiltinDyn.Within, BicycleParams.accelBound, BicycleParams.steeringBound, BuiltinDyn.dim]
    rcases h with h | ⟨h1, h2⟩
    · simpa [h] using key 1 1 one_pos.le one_pos.le
    · cases hn : P.normalizeActions
      · simpa using key _ _ h1 h2
      · simpa using key 1 1 one_pos.le one_pos.le

/-- Negative limits are rejected with a ValueError, when the action space is asked for. -/
theorem C110_negative_limits (d : BuiltinDyn) (h : ¬ d.SaneLimits) : d.spec = .error .valueError := by
  have h3 : ∀ P : DeltaParams, ¬ (0 ≤ P.maxDx ∧ 0 ≤ P.maxDy ∧ 0 ≤ P.maxDyaw) → deltaSpec P = .error .valueError := by
    intro P h
    have : ∃ i < 3, ¬ ([-P.maxDx, -P.maxDy, -P.maxDyaw].getD i 0 ≤ [P.maxDx, P.maxDy, P.maxDyaw].getD i 0) := by
      by_contra hc
      push Not at hc
      refine h ⟨?_, ?_, ?_⟩
      · have := hc 0 (by omega); simp at this; linarith
      · have := hc 1 (by omega); simp at this; linarith
      · have := hc 2 (by omega); simp at this; linarith
    obtain ⟨i, hi, hb⟩ := this
    exact create_vec_error (lo := [-P.maxDx, -P.maxDy, -P.maxDyaw]) rfl hi hb
  cases d with
  | state => exact absurd trivial h
  | deltaGlobal P => exact h3 P h
  | deltaLocal P => exact h3 P h
  | bicycle P =>
    simp only [BuiltinDyn.SaneLimits, not_or] at h
    obtain ⟨hn, h⟩ := h
    have : ∃ i < 2, ¬ ([-P.maxAccel, -P.maxSteering].getD i 0 ≤ [P.maxAccel, P.maxSteering].getD i 0) := by
      by_contra hc
      push Not at hc
      refine h ⟨?_, ?_⟩
      · have := hc 0 (by omega); simp at this; linarith
      · have := hc 1 (by omega); simp at this; linarith
    obtain ⟨i, hi, hb⟩ := this
    simp only [BuiltinDyn.spec, bicycleSpec]
    rw [if_neg (by simpa using hn)]
    exact create_vec_error (lo := [-P.maxAccel, -P.maxSteering]) rfl hi hb

/-- The discrete action space: one integer from 0 to the number of values minus one. -/
theorem C110_discrete_spec (ds : List BinDim) :
    ∃ s, discreteSpec ds = .ok s ∧ s.shape = [1] ∧ ∀ k : ℤ, s.Allows (fun _ => k) ↔ 0 ≤ k ∧ k < numBins ds := by
  have hpos : 1 ≤ numBins ds := by
    induction ds with
    | nil => simp [numBins]
    | cons d ds ih => simp only [numBins]; nlinarith [Int.natCast_nonneg d.bins]
  refine ⟨_, create_vec (lo := [0]) (hi := [(numBins ds : ℝ) - 1]) rfl ?_, rfl, fun k => ?_⟩
  · intro i hi
    have : i < 1 := hi
    interval_cases i
    simp
    exact_mod_cast hpos
  · rw [allows_vec (lo := [0]) (hi := [(numBins ds : ℝ) - 1]) rfl]
    constructor
    · intro h
      have := h 0 (by simp)
      simp at this
      refine ⟨by exact_mod_cast this.1, ?_⟩
      have h2 : (k : ℝ) + 1 ≤ (numBins ds : ℝ) := by linarith [this.2]
      exact_mod_cast h2
    · rintro ⟨h1, h2⟩ i hi
      have : i < 1 := hi
      interval_cases i
      have h3 : (k : ℝ) + 1 ≤ (numBins ds : ℝ) := by exact_mod_cast h2
      constructor
      · simpa using h1
      · simp; linarith

/-! ### C110: environments -/

section
variable {pre : List Nat} {n T : Nat}

/-- The multi-agent environment declares the dynamics' action space once for each object. -/
theorem C110_base_spec {single : BoundedSpec} {dim : Nat} (cfg : EnvConfig) (h0 : single.shape = [dim])
    (h1 : single.minimum.shape = [dim]) (h2 : single.maximum.shape = [dim])
    (hle : ∀ k < dim, single.minimum.get [k] ≤ single.maximum.get [k]) :
    ∃ s, baseActionSpec (.ok single) cfg = .ok s ∧ s.shape = [cfg.maxNumObjects, dim] ∧
      ∀ f, s.Allows f ↔ ∀ i < cfg.maxNumObjects, single.Allows fun idx => f (i :: idx) := by
  have ht : ∀ b : Nd EReal, b.shape = [dim] → tileRows b cfg.maxNumObjects =
      .ok { shape := [cfg.maxNumObjects, dim], get := fun idx => b.get idx.tail } := by
    intro b hb
    unfold tileRows
    rw [assertThat_ok (by rw [hb]; simp), hb]
    rfl
  have hin : ∀ i j, i < cfg.maxNumObjects → j < dim → InRange [cfg.maxNumObjects, dim] [i, j] :=
    fun i j hi hj => .cons hi (.cons hj .nil)
  have hout : ∀ idx, InRange [cfg.maxNumObjects, dim] idx → ∃ i j, i < cfg.maxNumObjects ∧ j < dim ∧ idx = [i, j] := by
    intro idx hidx
    unfold InRange at hidx
    cases hidx with
    | cons a b =>
      cases b with
      | cons c d => cases d; exact ⟨_, _, a, c, rfl⟩
  unfold baseActionSpec
  rw [exc_ok_bind, ht _ h1, exc_ok_bind, ht _ h2, exc_ok_bind, h0]
  refine ⟨_, create_eq (sh := [cfg.maxNumObjects, dim]) rfl rfl ?_, rfl, fun f => ?_⟩
  rotate_left
  · unfold BoundedSpec.Allows
    simp only [h0, h1, h2]
    constructor
    · intro h i hi idx hidx
      obtain ⟨j, hj, rfl⟩ := inRange_one hidx
      have := h [i, j] (hin i j hi hj)
      rw [broadcastIdx_self (hin i j hi hj)] at this
      rw [broadcastIdx_self hidx]
      exact this
    · intro h idx hidx
      obtain ⟨i, j, hi, hj, rfl⟩ := hout idx hidx
      have hj' : InRange [dim] [j] := .cons hj .nil
      have := h i hi [j] hj'
      rw [broadcastIdx_self hj'] at this
      rw [broadcastIdx_self hidx]
      exact this
  · intro idx hidx
    obtain ⟨i, j, hi, hj, rfl⟩ := hout idx hidx
    exact hle j hj

/-! #### Reshaping -/

theorem ravel_lt : ∀ {s idx : List Nat}, InRange s idx → ravel s idx < s.prod
  | [], [], _ => by simp [ravel]
  | d :: s, i :: idx, h => by
    unfold InRange at h
    cases h with
    | cons h1 h2 =>
      have ih := ravel_lt h2
      simp only [ravel, List.prod_cons]
      calc i * s.prod + ravel s idx < i * s.prod + s.prod := by omega
        _ = (i + 1) * s.prod := by ring
        _ ≤ d * s.prod := Nat.mul_le_mul_right _ h1

theorem unravel_ravel : ∀ {s idx : List Nat}, InRange s idx → unravel s (ravel s idx) = idx
  | [], [], _ => rfl
  | d :: s, i :: idx, h => by
    unfold InRange at h
    cases h with
    | cons h1 h2 =>
      have hlt := ravel_lt h2
      simp only [ravel, unravel]
      have hpos : 0 < s.prod := by omega
      rw [Nat.mul_comm, Nat.mul_add_div hpos, Nat.div_eq_of_lt hlt, Nat.mul_add_mod, Nat.mod_eq_of_lt hlt, unravel_ravel h2,
        Nat.add_zero]

theorem ravel_snoc_one : ∀ {s p : List Nat}, InRange s p → ravel (s ++ [1]) (p ++ [0]) = ravel s p
  | [], [], _ => by simp [ravel]
  | d :: s, i :: p, h => by
    unfold InRange at h
    cases h with
    | cons _ h2 =>
      simp only [List.cons_append, ravel, List.prod_append, List.prod_cons, List.prod_nil, mul_one, ravel_snoc_one h2]

/-- Reshaping to the own shape changes nothing. -/
theorem reshape_same {β : Type} {x : Nd β} {s : List Nat} (h : x.shape = s) :
    ∃ r, x.reshape s = .ok r ∧ r.shape = s ∧ ∀ idx, InRange s idx → r.get idx = x.get idx := by
  unfold Nd.reshape
  rw [h, assertThat_ok rfl]
  exact ⟨_, rfl, rfl, fun idx hidx => by simp only [unravel_ravel hidx]⟩

/-- Reshaping to the own shape and a last axis of length one. -/
theorem reshape_expand {β : Type} {x : Nd β} {s : List Nat} (h : x.shape = s) :
    ∃ r, x.reshape (s ++ [1]) = .ok r ∧ r.shape = s ++ [1] ∧ ∀ p, InRange s p → r.get (p ++ [0]) = x.get p := by
  unfold Nd.reshape
  rw [h, assertThat_ok (by simp)]
  exact ⟨_, rfl, rfl, fun p hp => by simp only [ravel_snoc_one hp, unravel_ravel hp]⟩

theorem dmAction_ok {α : Type} {batch : List Nat} {s : BoundedSpec} {raw data : Nd α} {q : List Nat} {dim : Nat}
    (hr : raw.reshape (batch ++ s.shape) = .ok data) (hd : data.shape = q ++ [dim]) (hdim : 0 < dim) :
    dmAction batch (.ok s) raw = .ok { data, valid := { shape := q ++ [1], get := fun _ => true } } := by
  have hs : (data.sliceLast 0 1).shape = q ++ [1] := by
    rw [sliceLast_shape hd (by omega)]
  unfold dmAction
  rw [exc_ok_bind, hr, exc_ok_bind]
  simp only [hs]
  rw [assertThat_ok (by rw [hd]; simp), exc_ok_bind, assertThat_ok (by simp), exc_ok_bind]
  rfl

/-- In the multi-agent environment, an array of the batch shape followed by the declared shape becomes the action with these rows,
all of them valid. -/
theorem C110_action {α : Type} {s : BoundedSpec} {dim : Nat} (hs : s.shape = [n, dim]) (hdim : 0 < dim) {raw : Nd α}
    (hraw : raw.shape = pre ++ s.shape) :
    ∃ a, dmAction pre (.ok s) raw = .ok a ∧ a.Shaped pre n dim ∧
      ∀ p, InRange pre p → ∀ i < n, ∀ k < dim, a.data.get (p ++ [i, k]) = raw.get (p ++ [i, k]) ∧ a.valid.get (p ++ [i, 0]) = true := by
  obtain ⟨r, h1, h2, h3⟩ := reshape_same hraw
  have h2' : r.shape = pre ++ [n] ++ [dim] := by rw [h2, hs, snoc2]
  refine ⟨_, dmAction_ok h1 h2' hdim, ⟨by rw [h2, hs], by rw [snoc2]⟩, fun p hp i hi k hk => ⟨?_, rfl⟩⟩
  exact h3 _ (by rw [hs]; exact hp.snoc2 hi hk)

/-- The validity flags of these actions have the shape and type that the action space declares for them. -/
theorem C110_valid_spec {α : Type} (cfg : EnvConfig) {s : BoundedSpec} {dim : Nat} (hs : s.shape = [cfg.maxNumObjects, dim]) (hdim : 0 < dim)
    {raw : Nd α} (hraw : raw.shape = pre ++ s.shape) :
    ∃ a, dmAction pre (.ok s) raw = .ok a ∧ a.valid.shape = pre ++ (baseValidSpec cfg).shape ∧ (baseValidSpec cfg).dtype = .bool := by
  obtain ⟨a, h, hsh, -⟩ := C110_action hs hdim hraw
  exact ⟨a, h, hsh.valid, rfl⟩

/-- In the planning environment, an array of the batch shape followed by the declared shape becomes the action with these
numbers. -/
theorem C110_planning_action {α : Type} {s : BoundedSpec} {dim : Nat} (hs : s.shape = [dim]) (hdim : 0 < dim) {raw : Nd α}
    (hraw : raw.shape = pre ++ s.shape) :
    ∃ a, dmAction pre (planningActionSpec (.ok s)) raw = .ok a ∧ a.data.shape = pre ++ [dim] ∧ a.valid.shape = pre ++ [1] ∧
      ∀ p, InRange pre p → ∀ k < dim, a.data.get (p ++ [k]) = raw.get (p ++ [k]) ∧ a.valid.get (p ++ [0]) = true := by
  obtain ⟨r, h1, h2, h3⟩ := reshape_same hraw
  have h2' : r.shape = pre ++ [dim] := by rw [h2, hs]
  refine ⟨_, dmAction_ok h1 h2' hdim, h2', rfl, fun p hp k hk => ⟨?_, rfl⟩⟩
  exact h3 _ (by rw [hs]; exact hp.snoc hk)

/-- A discrete action of the planning environment is declared and accepted as a number without axis: the wrapper's action space has
shape `()` and the same bounds, and the array of the batch shape becomes the action with one number for each scenario. -/
theorem C110_squeezed (ds : List BinDim) :
    ∃ s, dmActionSpec true (planningActionSpec (discreteSpec ds)) = .ok s ∧ s.shape = [] ∧ s.dtype = .int32 ∧
      (∀ k : ℤ, s.Allows (fun _ => k) ↔ 0 ≤ k ∧ k < numBins ds) ∧
      ∀ raw : Nd ℤ, raw.shape = pre ++ s.shape →
        ∃ a, dmAction pre (planningActionSpec (discreteSpec ds)) raw = .ok a ∧ a.data.shape = pre ++ [1] ∧
          ∀ p, InRange pre p → a.data.get (p ++ [0]) = raw.get p ∧ a.valid.get (p ++ [0]) = true := by
  have hpos : 1 ≤ numBins ds := by
    induction ds with
    | nil => simp [numBins]
    | cons d ds ih => simp only [numBins]; nlinarith [Int.natCast_nonneg d.bins]
  have hle : (0 : ℝ) ≤ (numBins ds : ℝ) - 1 := by
    have : (1 : ℝ) ≤ numBins ds := by exact_mod_cast hpos
    linarith
  have hspec : discreteSpec ds = .ok { shape := [1], dtype := .int32, minimum := vecOf [0], maximum := vecOf [(numBins ds : ℝ) - 1] } :=
    create_vec (lo := [0]) (hi := [(numBins ds : ℝ) - 1]) rfl (by
      intro i hi
      have : i < 1 := hi
      interval_cases i
      simpa using hle)
  have hnil : ∀ idx, InRange [] idx → idx = [] := by
    intro idx h
    unfold InRange at h
    cases h
    rfl
  have hsq : dmActionSpec true (planningActionSpec (discreteSpec ds)) = .ok
      { shape := [], dtype := .int32
        minimum := { shape := [], get := fun idx => (vecOf [0]).get (0 :: idx) }
        maximum := { shape := [], get := fun idx => (vecOf [(numBins ds : ℝ) - 1]).get (0 :: idx) } } := by
    unfold dmActionSpec planningActionSpec
    rw [hspec, exc_ok_bind, if_pos ⟨rfl, rfl⟩]
    unfold dmActionSpec.squeezed
    rw [assertThat_ok ⟨by simp [vecOf], by simp [vecOf]⟩, exc_ok_bind]
    refine create_eq rfl rfl fun idx hidx => ?_
    rw [hnil idx hidx]
    simp only [vecOf_get]
    exact EReal.coe_le_coe_iff.2 (by simpa using hle)
  refine ⟨_, hsq, rfl, rfl, fun k => ?_, fun raw hraw => ?_⟩
  · unfold BoundedSpec.Allows
    have : InRange [] [] := .nil
    constructor
    · intro h
      obtain ⟨h1, h2⟩ := h [] this
      rw [broadcastIdx_self (s := []) this, vecOf_get, EReal.coe_le_coe_iff] at h1 h2
      simp at h1 h2
      refine ⟨by exact_mod_cast h1, ?_⟩
      have h3 : (k : ℝ) + 1 ≤ (numBins ds : ℝ) := by linarith
      exact_mod_cast h3
    · rintro ⟨h1, h2⟩ idx hidx
      rw [hnil idx hidx, broadcastIdx_self (s := []) this, vecOf_get, vecOf_get, EReal.coe_le_coe_iff, EReal.coe_le_coe_iff]
      have h3 : (k : ℝ) + 1 ≤ (numBins ds : ℝ) := by exact_mod_cast h2
      constructor
      · simpa using h1
      · simp; linarith
  · simp only [List.append_nil] at hraw
    obtain ⟨r, h1, h2, h3⟩ := reshape_expand hraw
    unfold planningActionSpec
    rw [hspec]
    exact ⟨_, dmAction_ok h1 h2 one_pos, h2, fun p hp => ⟨h3 p hp, rfl⟩⟩

/-! ### C110: the whole step -/

/-- C110, full expectation: every built-in dynamics with sane limits can be used in the multi-agent environment through the DMEnv
wrapper, with arrays of the declared shape. -/
def C110_full : Prop :=
  ∀ (d : BuiltinDyn) (pre : List Nat) (n T : Nat) (cfg : EnvConfig) (S : StateNd ℝ) (raw : Nd ℝ), d.SaneLimits → 0 < T →
    cfg.controlledObject ≠ .NON_SDC → cfg.maxNumObjects = n → (∃ p, InRange pre p) → S.Shaped pre n T → S.timestep.shape = [] →
    raw.shape = pre ++ [n, d.dim] → ∃ s', dmNextState d.model d.spec cfg S raw = .ok s'

/-- With state dynamics the multi-agent environment has no action space: asking for it fails. -/
theorem C110_state_no_spec (cfg : EnvConfig) : baseActionSpec stateSpec cfg = .error .indexError := by
  obtain ⟨s, hs, -, -⟩ := C110_dynamics_spec .state trivial
  have hm : s.minimum.shape = [] := by
    have : (stateSpec) = .ok s := hs
    unfold stateSpec BoundedSpec.create at this
    simp only [bind_eq_ok] at this
    obtain ⟨-, -, -, -, -, -, this⟩ := this
    cases this
    rfl
  have hs' : stateSpec = .ok s := hs
  unfold baseActionSpec
  rw [hs', exc_ok_bind]
  unfold tileRows
  rw [assertThat_error (by rw [hm]; simp)]
  rfl

/-- Hence no step is possible through the DMEnv wrapper, whatever the action. -/
theorem C110_state_never (cfg : EnvConfig) (S : StateNd ℝ) (raw : Nd ℝ) :
    dmNextState (stateNd ℝ) stateSpec cfg S raw = .error .indexError := by
  unfold dmNextState dmAction
  rw [C110_state_no_spec]
  rfl

theorem C110_violated : ¬ C110_full := by
  intro h
  obtain ⟨s', hs⟩ := h .state [2] 1 3 { maxNumObjects := 1, controlledObject := .SDC } { exTwo with timestep := Nd.scalar 0 }
    { shape := [2, 1, 5], get := fun _ => 0 } trivial (by omega) (by simp) rfl ⟨[0], .cons (by omega) .nil⟩
    ⟨exTwo_shaped.sim, exTwo_shaped.log, exTwo_shaped.metadata⟩ rfl rfl
  have : dmNextState (stateNd ℝ) stateSpec { maxNumObjects := 1, controlledObject := .SDC }
    { exTwo with timestep := Nd.scalar 0 } { shape := [2, 1, 5], get := fun _ => 0 } = .ok s' := hs
  rw [C110_state_never] at this
  cases this

/-- What holds, for delta and bicycle dynamics: the wrapper's step is the environment's step with the given numbers as the actions
of the objects, all of them valid. Missing: state dynamics, see `C110_violated`. -/
theorem C110_step_partial [NeZero T] (d : BuiltinDyn) (hd : d ≠ .state) (hl : d.SaneLimits) (cfg : EnvConfig)
    (hc : cfg.controlledObject ≠ .NON_SDC) (hn : cfg.maxNumObjects = n) (hb : ∃ p, InRange pre p) {S : StateNd ℝ}
    (h : S.Shaped pre n T) (ht : S.timestep.shape = []) {raw : Nd ℝ} (hraw : raw.shape = pre ++ [n, d.dim]) :
    ∃ a s', dmNextState d.model d.spec cfg S raw = .ok s' ∧ stepNd d.model cfg S a = .ok s' ∧ a.Shaped pre n d.dim ∧
      ∀ p, InRange pre p → ∀ i < n, ∀ k < d.dim,
        a.data.get (p ++ [i, k]) = raw.get (p ++ [i, k]) ∧ a.valid.get (p ++ [i, 0]) = true := by
  obtain ⟨single, e1, s1, -⟩ := C110_dynamics_spec d hl
  have hvec : ∃ lo hi : List ℝ, d.spec = BoundedSpec.create [lo.length] .float32 (vecOf lo) (vecOf hi) ∧ lo.length = d.dim ∧
      hi.length = d.dim := by
    cases d with
    | state => exact absurd rfl hd
    | deltaGlobal P => exact ⟨[-P.maxDx, -P.maxDy, -P.maxDyaw], [P.maxDx, P.maxDy, P.maxDyaw], rfl, rfl, rfl⟩
    | deltaLocal P => exact ⟨[-P.maxDx, -P.maxDy, -P.maxDyaw], [P.maxDx, P.maxDy, P.maxDyaw], rfl, rfl, rfl⟩
    | bicycle P =>
      by_cases hP : P.normalizeActions = true
      · exact ⟨[-1, -1], [1, 1], by simp [BuiltinDyn.spec, bicycleSpec, hP], rfl, rfl⟩
      · exact ⟨[-P.maxAccel, -P.maxSteering], [P.maxAccel, P.maxSteering], by simp [BuiltinDyn.spec, bicycleSpec, hP], rfl, rfl⟩
  obtain ⟨lo, hi, e2, l1, l2⟩ := hvec
  have hle : ∀ i < lo.length, lo.getD i 0 ≤ hi.getD i 0 := by
    by_contra hcon
    push Not at hcon
    obtain ⟨i, hi', hlt⟩ := hcon
    rw [e2, create_vec_error (l1.trans l2.symm) hi' (not_le.2 hlt)] at e1
    cases e1
  rw [e2, create_vec (l1.trans l2.symm) hle] at e1
  have := Except.ok.inj e1
  obtain ⟨s, e3, s3, -⟩ := C110_base_spec (single := single) (dim := d.dim) cfg s1 (by rw [← this, ← l1]; rfl) (by rw [← this, ← l2]; rfl)
    (by
      intro k hk
      rw [← this]
      exact EReal.coe_le_coe_iff.2 (hle k (l1 ▸ hk)))
  have hspec : d.spec = .ok single := by rw [e2, create_vec (l1.trans l2.symm) hle, this]
  have hdim : 0 < d.dim := by cases d <;> simp [BuiltinDyn.dim]
  rw [hn] at s3
  obtain ⟨a, e4, ha, ga⟩ := C110_action (pre := pre) s3 hdim (raw := raw) (by rw [hraw, s3])
  have key : ∃ s', stepNd d.model cfg S a = .ok s' := by
    cases d with
    | state => exact absurd rfl hd
    | deltaGlobal P => exact (C106_shared_step_partial (C105_deltaGlobal P n) cfg hc h ht ha hb).imp fun _ h => h.1
    | deltaLocal P => exact (C106_shared_step_partial (C105_deltaLocal P n) cfg hc h ht ha hb).imp fun _ h => h.1
    | bicycle P => exact (C106_shared_step_partial (C105_bicycle P n) cfg hc h ht ha hb).imp fun _ h => h.1
  obtain ⟨s', hs'⟩ := key
  refine ⟨a, s', ?_, hs', ha, ga⟩
  unfold dmNextState
  rw [h.shape_eq, hspec, e3, e4, exc_ok_bind]
  exact hs'

end

/-- Two scenarios with one car each, moved by bicycle actions given as a plain array of shape `(2, 1, 2)`. -/
example : ∃ (a : ActNd ℝ) (s' : StateNd ℝ), dmNextState (bicycleNd {}) (bicycleSpec {}) { maxNumObjects := 1 } { exTwo with timestep := Nd.scalar 0 }
    { shape := [2, 1, 2], get := fun idx => idx.getD 2 0 } = .ok s' ∧ a.data.get [1, 0, 1] = (1 : ℝ) := by
  obtain ⟨a, s', h1, -, -, h4⟩ := C110_step_partial (pre := [2]) (n := 1) (T := 3) (.bicycle {}) (by simp)
    (Or.inr ⟨by norm_num, by norm_num⟩) { maxNumObjects := 1 } (by simp) rfl ⟨[0], .cons (by omega) .nil⟩
    (S := { exTwo with timestep := Nd.scalar 0 }) ⟨exTwo_shaped.sim, exTwo_shaped.log, exTwo_shaped.metadata⟩ rfl
    (raw := { shape := [2, 1, 2], get := fun idx => idx.getD 2 0 }) rfl
  refine ⟨a, s', h1, ?_⟩
  have := (h4 [1] (.cons (by omega) .nil) 0 (by omega) 1 (by simp [BuiltinDyn.dim])).1
  simpa using this

/-- A discrete action space with 3 times 2 bins. -/
example : ∃ s, dmActionSpec true (planningActionSpec (discreteSpec [⟨0, 1, 2⟩, ⟨0, 1, 1⟩])) = .ok s ∧ s.Allows fun _ => ((5 : ℤ) : ℝ) := by
  obtain ⟨s, h1, -, -, h4, -⟩ := C110_squeezed (pre := []) [⟨0, 1, 2⟩, ⟨0, 1, 1⟩]
  exact ⟨s, h1, (h4 5).2 ⟨by norm_num, by norm_num [numBins]⟩⟩

end Waymax
